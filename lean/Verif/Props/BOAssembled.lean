import Verif.Lemmas.BOAssembled
import Verif.Props.MFSamplers
import Verif.Props.Acquisitions
import Verif.Props.BayesOpt

/-!
# C85 – C91: the Bayesian optimisers with the library's own parts

Vocabulary: `Verif/Spec/BOAssembled.lean`, `Verif/Spec/BayesOpt.lean`.
-/

namespace Mfpml.Props

open Mfpml Mfpml.Acq Mfpml.GP Mfpml.Spec Mfpml.BO
open Mfpml.EA (Box)
open Mfpml.Sampling (lhsSamples Env)

variable {d : ℕ}

/-! ## A concrete outside world -/

/-- The generator is a counter, LHS the diagonal design, all searches stay at the lower corner. -/
noncomputable def exOutside (d : ℕ) : Outside d where
  env :=
    { S := ℕ
      lhs := fun _ n s => ((List.range n).map (fun i : ℕ => fun _ => ((i : ℝ) + 1) / n), s)
      sobol := fun _ s => (fun _ _ => 0, s)
      seed := fun sd _ => sd
      random := fun n s => (List.replicate n (fun _ => 0), s + 1)
      choice := fun _ k s => (List.range k, s + 1) }
  mini := cornerMinimizer
  uniform := fun n _ lo _ s => (List.replicate n lo, s + 1)
  de := fun f b s => do
    let v ← f b.low
    (open Classical in if ∀ j, b.low j ≤ b.high j then .ok ((b.low, v), s + 1) else .error .valueError)

theorem exOutside_lawful (d : ℕ) : Lawful (exOutside d) where
  env :=
    { lhs_len := by intro sd n s; simp [exOutside]
      lhs_unit := by
        intro sd n s x hx j
        simp only [exOutside, List.mem_map, List.mem_range] at hx
        obtain ⟨i, hi, rfl⟩ := hx
        have hn : (0 : ℝ) < n := by exact_mod_cast (by omega : 0 < n)
        refine ⟨by positivity, ?_⟩
        rw [div_le_one hn]
        exact_mod_cast (by omega : i + 1 ≤ n)
      lhs_seeded := fun _ _ _ _ => ⟨rfl, rfl⟩
      sobol_unit := by intro sd s k j; simp [exOutside]
      sobol_seeded := fun _ _ _ => ⟨rfl, rfl⟩
      seed_reset := fun _ _ _ => rfl
      random_len := by intro n s; simp [exOutside]
      random_unit := by
        intro n s x hx j
        simp only [exOutside] at hx
        rw [List.eq_of_mem_replicate hx]
        norm_num
      choice_len := by intro m k s _; simp [exOutside]
      choice_nodup := by intro m k s _; exact List.nodup_range
      choice_lt := by
        intro m k s h i hi
        exact lt_of_lt_of_le (List.mem_range.mp hi) h }
  mini := cornerMinimizer_good
  uniform_len := by intro n p lo hi w; simp [exOutside]
  de := by
    intro f b w x v w' h
    simp only [exOutside] at h
    obtain ⟨u, hu, h⟩ := Py.bind_ok.mp h
    split_ifs at h with hc
    cases h
    exact ⟨fun j => ⟨le_rfl, hc j⟩, hu⟩
  de_total := by
    intro f b w _ hb hf
    obtain ⟨v, hv⟩ := hf b.low fun j => ⟨le_rfl, hb j⟩
    exact ⟨((b.low, v), Nat.succ w), Py.bind_ok.mpr ⟨v, hv, if_pos hb⟩⟩

/-! ## C85: a single-fidelity optimiser never leaves the input domain -/

/-- Every point at which the objective has been evaluated, every stored sample and every reported best point lies in the problem's domain, in every state reached by construction and any number of
`run_optimizer` calls; so does the next point the acquisition would propose (also if the evaluation there fails). The problem is arbitrary: it may raise, return anything, or be constant. -/
theorem C85_sf_confined (o : Outside d) (ho : Lawful o) (b : Box ℝ d) (hb : ∀ j, b.low j ≤ b.high j) (f : List (Fin d → ℝ) → Py (List ℝ)) (optimum : Option ℝ)
    (eval : (m : ℕ) → SFSurr d → Samples m d → Py (Fin m → ℝ)) (opt : Option (PopOpt o.env.S d)) (hopt : ∀ run, opt = some run → PropagatesErrors run) (numInit seed : ℕ)
    {s : SFState ℝ (Fin d → ℝ) (Kriging d) o.env.S} (h : SFReachable (sfBO o b f optimum eval opt numInit seed) s) :
    (∀ xs ∈ s.calls, ∀ x ∈ xs, InBounds b x) ∧ (∀ x ∈ s.sample, InBounds b x) ∧ InBounds b s.bestX ∧ (∀ x ∈ s.historyBestX, InBounds b x) ∧
      ∀ x w, (sfBO o b f optimum eval opt numInit seed).query s.surrogate s.rng = .ok (x, w) → InBounds b x := by
  set p := sfBO o b f optimum eval opt numInit seed with hp
  have hq : ∀ (k : Kriging d) w x w', k.obj.box = b → p.query k w = .ok (x, w') → InBounds b x := by
    intro k w x w' hk hq
    obtain ⟨v, hv, hq⟩ := Py.bind_ok.mp hq
    unfold Kriging.view at hv
    split at hv
    · cases hv
      have := sf_query_ok ho.de hopt hq
      rwa [SFSurr.ofGP, hk] at this
    · cases hv
  have key : UsualGP b s.surrogate.obj ∧ (∀ xs ∈ s.calls, ∀ x ∈ xs, InBounds b x) ∧ (∀ x ∈ s.sample, InBounds b x) ∧ InBounds b s.bestX ∧ ∀ x ∈ s.historyBestX, InBounds b x := by
    refine sf_reachable_inv (fun s => UsualGP b s.surrogate.obj ∧ (∀ xs ∈ s.calls, ∀ x ∈ xs, InBounds b x) ∧ (∀ x ∈ s.sample, InBounds b x) ∧ InBounds b s.bestX ∧
      ∀ x ∈ s.historyBestX, InBounds b x) ?_ ?_ h
    · intro w s h
      obtain ⟨w1, i, h1, h2, h3, h4, h5, h6, h7, h8⟩ := sf_new_steps h
      have hs : ∀ x ∈ s.sample, InBounds b x := by
        have e : s.sample = (lhsSamples o.env b numInit (some seed) (o.env.seed seed w)).1 := (congrArg Prod.fst (Except.ok.inj h1)).symm
        rw [e]
        exact lhs_inBounds ho.env hb _ _ _
      have hx := hs _ (List.mem_of_getElem? h6)
      refine ⟨(kriging_train_ok (usual_fresh b) h3).usual, ?_, hs, hx, ?_⟩
      · rw [h7]; simpa using hs
      · rw [h8]; simpa using hx
    · rintro s s' ⟨i1, i2, i3, i4, i5⟩ h
      obtain ⟨x, w1, y, i, h1, h2, h3, h4, h5, h6, h7, h8, h9, h10⟩ := sf_iterate_steps h
      have hx := hq _ _ _ _ i1.box h1
      have hs : ∀ x ∈ s'.sample, InBounds b x := by
        rw [h4]
        intro x' hx'
        rcases List.mem_append.mp hx' with h' | h'
        · exact i3 _ h'
        · rw [List.mem_singleton.mp h']; exact hx
      have hbx := hs _ (List.mem_of_getElem? h9)
      refine ⟨(kriging_train_ok i1 h3).usual, ?_, hs, hbx, ?_⟩
      · rw [h6]
        intro xs hxs
        rcases List.mem_append.mp hxs with h' | h'
        · exact i2 _ h'
        · rw [List.mem_singleton.mp h']; simpa using hx
      · rw [h10]
        intro x' hx'
        rcases List.mem_append.mp hx' with h' | h'
        · exact i5 _ h'
        · rw [List.mem_singleton.mp h']; exact hbx
  exact ⟨key.2.1, key.2.2.1, key.2.2.2.1, key.2.2.2.2, fun x w hx => hq _ _ _ _ key.1.box hx⟩

/-! ## C86: when a single-fidelity optimiser works -/

/-- The surrogate is fitted to the whole history, whose responses are not all equal. -/
theorem sf_fitted {o : Outside d} {b : Box ℝ d} {f : List (Fin d → ℝ) → Py (List ℝ)} {optimum : Option ℝ} {eval : (m : ℕ) → SFSurr d → Samples m d → Py (Fin m → ℝ)}
    {opt : Option (PopOpt o.env.S d)} {numInit seed : ℕ} {s : SFState ℝ (Fin d → ℝ) (Kriging d) o.env.S} (h : SFReachable (sfBO o b f optimum eval opt numInit seed) s) :
    Fitted b s.sample s.response s.surrogate ∧ (∃ y ∈ s.response, ∃ y' ∈ s.response, y ≠ y') ∧ npMin s.response = .ok s.best := by
  refine sf_reachable_inv (fun s => Fitted b s.sample s.response s.surrogate ∧ (∃ y ∈ s.response, ∃ y' ∈ s.response, y ≠ y') ∧ npMin s.response = .ok s.best) ?_ ?_ h
  · intro w s h
    obtain ⟨w1, i, h1, h2, h3, h4, _⟩ := sf_new_steps h
    exact ⟨kriging_train_ok (usual_fresh b) h3, kriging_train_differ h3, h4⟩
  · rintro s s' ⟨i1, _, _⟩ h
    obtain ⟨x, w1, y, i, h1, h2, h3, h4, h5, h6, h7, _⟩ := sf_iterate_steps h
    rw [← h4, ← h5] at h3
    exact ⟨kriging_train_ok i1.usual h3, kriging_train_differ h3, h7⟩

/-- For an objective defined on the whole space, LCB, EI or PI and the default search: constructing the optimiser succeeds exactly when the responses of the initial design are not all equal, and from then on
every `run_optimizer` call succeeds, for every number of iterations and stopping threshold. -/
theorem C86_sf_succeeds (o : Outside d) (ho : Lawful o) (hd : 0 < d) (b : Box ℝ d) (hb : ∀ j, b.low j < b.high j) {f : List (Fin d → ℝ) → Py (List ℝ)} {g : (Fin d → ℝ) → ℝ}
    (hf : Rowwise f g) (optimum : Option ℝ) {eval : (m : ℕ) → SFSurr d → Samples m d → Py (Fin m → ℝ)} (he : LibraryAcq eval) (numInit seed : ℕ) :
    (∀ w, (∃ s, (sfBO o b f optimum eval none numInit seed).new w = .ok s) ↔
      ∃ x ∈ (lhsSamples o.env b numInit (some seed) (o.env.seed seed w)).1, ∃ x' ∈ (lhsSamples o.env b numInit (some seed) (o.env.seed seed w)).1, g x ≠ g x') ∧
    ∀ s, SFReachable (sfBO o b f optimum eval none numInit seed) s → ∀ maxIter stop, ∃ r, (sfBO o b f optimum eval none numInit seed).run maxIter stop s = .ok r := by
  set p := sfBO o b f optimum eval none numInit seed with hp
  constructor
  · intro w
    set xs := (lhsSamples o.env b numInit (some seed) (o.env.seed seed w)).1 with hxs
    constructor
    · rintro ⟨s, h⟩
      obtain ⟨w1, i, h1, h2, h3, _⟩ := sf_new_steps h
      have e : s.sample = xs := (congrArg Prod.fst (Except.ok.inj h1)).symm
      have e2 : s.response = xs.map g := by
        have h2' : f s.sample = .ok s.response := h2
        rw [hf, e] at h2'
        exact (Except.ok.inj h2').symm
      obtain ⟨y, hy, y', hy', hne⟩ := kriging_train_differ h3
      rw [e2] at hy hy'
      obtain ⟨x, hx, rfl⟩ := List.mem_map.mp hy
      obtain ⟨x', hx', rfl⟩ := List.mem_map.mp hy'
      exact ⟨x, hx, x', hx', hne⟩
    · rintro ⟨x, hx, x', hx', hne⟩
      have hlen : (xs.map g).length = xs.length := by simp
      obtain ⟨⟨k, w2⟩, h3⟩ := kriging_train_succeeds ho hb (k := freshKriging b) (usual_fresh b) hlen ⟨_, List.mem_map_of_mem hx, _, List.mem_map_of_mem hx', hne⟩
        (lhsSamples o.env b numInit (some seed) (o.env.seed seed w)).2
      have hne' : xs.map g ≠ [] := fun hc => by rw [List.map_eq_nil_iff] at hc; rw [hc] at hx; simp at hx
      obtain ⟨m, hm⟩ := npMin_succeeds hne'
      obtain ⟨i, hi⟩ := npArgmin_succeeds hne'
      have hat := npArgmin_at hm hi
      rw [List.getElem?_map] at hat
      obtain ⟨bx, hbx, _⟩ := Option.map_eq_some_iff.mp hat
      exact ⟨_, Py.bind_ok.mpr ⟨_, rfl, Py.bind_ok.mpr ⟨_, hf _, Py.bind_ok.mpr ⟨_, h3, Py.bind_ok.mpr ⟨_, hm, Py.bind_ok.mpr ⟨_, hi,
        Py.bind_ok.mpr ⟨_, npRow_ok.mpr hbx, rfl⟩⟩⟩⟩⟩⟩⟩
  · intro s hs
    have hit : ∀ s, SFReachable p s → ∃ s', p.iterate s = .ok s' := by
      intro s hs
      obtain ⟨hfit, hdiff, _⟩ := sf_fitted hs
      obtain ⟨v, hv, hvb, hvy, hvp, _⟩ := hfit.view
      have hvy' : v.sampleY ≠ [] := by
        rw [hvy]
        obtain ⟨y, hy, _⟩ := hdiff
        exact List.ne_nil_of_mem hy
      obtain ⟨⟨⟨x, u⟩, w1⟩, hr⟩ := ho.de_total (single (eval 1 v)) b s.rng hd (fun j => (hb j).le) fun x _ => by
        obtain ⟨u, hu⟩ := library_total he hvy' hvp 1 (onePoint x)
        exact ⟨u 0, single_ok.mpr ⟨u, hu, rfl⟩⟩
      have hquery : p.query s.surrogate s.rng = .ok (x, w1) := by
        refine Py.bind_ok.mpr ⟨v, hv, ?_⟩
        simp only [sfQuery]
        rw [hvb]
        exact Py.bind_ok.mpr ⟨_, hr, rfl⟩
      have hlen : s.response.length = s.sample.length := hfit.choose
      have hlen' : (s.response ++ [g x]).length = (s.sample ++ [x]).length := by simp [hlen]
      obtain ⟨y, hy, y', hy', hne⟩ := hdiff
      obtain ⟨⟨k, w2⟩, h3⟩ := kriging_train_succeeds ho hb hfit.usual hlen' ⟨y, by simp [hy], y', by simp [hy'], hne⟩ w1
      have hne' : s.response ++ [g x] ≠ [] := by simp
      obtain ⟨m, hm⟩ := npMin_succeeds hne'
      obtain ⟨i, hi⟩ := npArgmin_succeeds hne'
      have hat := npArgmin_at hm hi
      have hil : i < (s.sample ++ [x]).length := by
        rw [← hlen']
        exact (List.getElem?_eq_some_iff.mp hat).1
      exact ⟨_, Py.bind_ok.mpr ⟨_, hquery, Py.bind_ok.mpr ⟨_, hf _, Py.bind_ok.mpr ⟨_, h3, Py.bind_ok.mpr ⟨_, hm, Py.bind_ok.mpr ⟨_, hi,
        Py.bind_ok.mpr ⟨_, npRow_ok.mpr (List.getElem?_eq_getElem hil), rfl⟩⟩⟩⟩⟩⟩⟩
    intro maxIter stop
    have hloop : ∀ k s, SFReachable p s → ∃ s', p.loop stop k s = .ok s' := by
      intro k
      induction k with
      | zero => intro s _; exact ⟨s, rfl⟩
      | succ k ih =>
        intro s hs
        unfold SFProblem.loop
        by_cases hc : updateError s.best p.optimum ≥ stop
        · rw [if_pos hc]
          obtain ⟨s', h'⟩ := hit s hs
          have hr : SFReachable p s' := by
            refine .run 1 stop hs (s' := s') (b := s'.best) (x := s'.bestX) ?_
            refine Py.bind_ok.mpr ⟨s', ?_, rfl⟩
            unfold SFProblem.loop
            rw [if_pos hc]
            exact Py.bind_ok.mpr ⟨s', h', rfl⟩
          obtain ⟨s'', h''⟩ := ih s' hr
          exact ⟨s'', Py.bind_ok.mpr ⟨s', h', h''⟩⟩
        · rw [if_neg hc]; exact ⟨s, rfl⟩
    obtain ⟨s', h'⟩ := hloop maxIter s hs
    exact ⟨_, Py.bind_ok.mpr ⟨s', h', rfl⟩⟩

/-- In particular with fewer than two initial samples, or a constant objective, the optimiser cannot even be constructed. -/
theorem C86_sf_too_few (o : Outside d) (ho : Lawful o) (hd : 0 < d) (b : Box ℝ d) (hb : ∀ j, b.low j < b.high j) {f : List (Fin d → ℝ) → Py (List ℝ)} {g : (Fin d → ℝ) → ℝ}
    (hf : Rowwise f g) (optimum : Option ℝ) {eval : (m : ℕ) → SFSurr d → Samples m d → Py (Fin m → ℝ)} (he : LibraryAcq eval) (numInit seed : ℕ)
    (h : numInit ≤ 1 ∨ ∀ x x', g x = g x') (w : o.env.S) : ∃ e, (sfBO o b f optimum eval none numInit seed).new w = .error e := by
  cases hn : (sfBO o b f optimum eval none numInit seed).new w with
  | error e => exact ⟨e, rfl⟩
  | ok s =>
    exfalso
    obtain ⟨x, hx, x', hx', hne⟩ := ((C86_sf_succeeds o ho hd b hb hf optimum he numInit seed).1 w).mp ⟨s, hn⟩
    rcases h with h | h
    · have hl : (lhsSamples o.env b numInit (some seed) (o.env.seed seed w)).1.length = numInit := by simp [lhsSamples, Sampling.scaleSamples, ho.env.lhs_len]
      obtain ⟨i, hi, rfl⟩ := List.mem_iff_getElem.mp hx
      obtain ⟨j, hj, rfl⟩ := List.mem_iff_getElem.mp hx'
      have : i = j := by omega
      subst this
      exact hne rfl
    · exact hne (h _ _)

/-- The unit interval. -/
def exInterval : Box ℝ 1 := { low := fun _ => 0, high := fun _ => 1 }

/-- `C85_sf_confined`, `C86_sf_succeeds` apply: on the unit interval with objective `x`, two initial samples and EI the optimiser is constructed and runs. -/
theorem exSF_reachable : ∃ s, SFReachable (sfBO (exOutside 1) exInterval (fun xs => .ok (xs.map fun x => x 0)) none (fun _ => eiEval) none 2 1996) s := by
  obtain ⟨s, hs⟩ := ((C86_sf_succeeds (exOutside 1) (exOutside_lawful 1) one_pos exInterval (fun _ => by simp [exInterval]) (f := fun xs => .ok (xs.map fun x => x 0)) (g := fun x => x 0)
    (fun _ => rfl) none (eval := fun _ => eiEval) (Or.inr (Or.inl rfl)) 2 1996).1 (0 : ℕ)).mpr (by
      refine ⟨fun _ => 0 + ((0 : ℝ) + 1) / 2 * (1 - 0), ?_, fun _ => 0 + ((1 : ℝ) + 1) / 2 * (1 - 0), ?_, by norm_num⟩
      · simp only [lhsSamples, Sampling.scaleSamples, List.mem_map, exOutside, List.mem_range]
        exact ⟨_, ⟨0, by norm_num, rfl⟩, by funext j; simp [Sampling.scalePt, exInterval]⟩
      · simp only [lhsSamples, Sampling.scaleSamples, List.mem_map, exOutside, List.mem_range]
        exact ⟨_, ⟨1, by norm_num, rfl⟩, by funext j; simp [Sampling.scalePt, exInterval]⟩)
  exact ⟨s, .new _ hs⟩

example : ∃ s, SFReachable (sfBO (exOutside 1) exInterval (fun xs => .ok (xs.map fun x => x 0)) none (fun _ => eiEval) none 2 1996) s ∧
    ∃ r, (sfBO (exOutside 1) exInterval (fun xs => .ok (xs.map fun x => x 0)) none (fun _ => eiEval) none 2 1996).run 10 0.5 s = .ok r := by
  obtain ⟨s, hs⟩ := exSF_reachable
  exact ⟨s, hs, (C86_sf_succeeds (exOutside 1) (exOutside_lawful 1) one_pos exInterval (fun _ => by simp [exInterval]) (g := fun x => x 0) (fun _ => rfl) none
    (Or.inr (Or.inl rfl)) 2 1996).2 s hs 10 0.5⟩

/-! ## C87: equal seeds give equal optimisers -/

/-- The optimiser that a constructor call produces, and with it everything every later `run_optimizer` call does, depends on the arguments only: whatever state numpy's global generator is in, two calls with equal
arguments give the same object (single fidelity, constrained, multi-fidelity; for the latter the *contents* of the `num_init` list are an argument). -/
theorem C87_reproducible (o : Outside d) (ho : Lawful o) (b : Box ℝ d) :
    (∀ f optimum eval opt numInit seed w w', (sfBO o b f optimum eval opt numInit seed).new w = (sfBO o b f optimum eval opt numInit seed).new w') ∧
    (∀ (c : ℕ) f (fCons : List (Fin d → ℝ) → Py (List (Fin c → ℝ))) numCons optimum opt numInit seed w w',
      (consBO o b f fCons numCons optimum opt numInit seed).new w = (consBO o b f fCons numCons optimum opt numInit seed).new w') ∧
    ∀ hf lf optimum query name seed w w' l, (mfBO o b hf lf optimum query name seed).new (w, l) = (mfBO o b hf lf optimum query name seed).new (w', l) := by
  refine ⟨?_, ?_, ?_⟩
  · intro f optimum eval opt numInit seed w w'
    simp only [SFProblem.new, sfBO, ho.env.seed_reset seed w w']
  · intro c f fCons numCons optimum opt numInit seed w w'
    simp only [ConsProblem.new, consBO, ho.env.seed_reset seed w w']
  · intro hf lf optimum query name seed w w' l
    simp only [MFProblem.new, mfBO, mfInit, ho.env.seed_reset seed w w']

/-! ## C88: the surrogate knows the whole history, and the proposals follow it -/

/-- In every reachable state of a single-fidelity optimiser (whatever the problem and acquisition) the surrogate reproduces every stored response exactly and with standard deviation zero, and the incumbent of
EI and PI, the smallest response the surrogate stores, is the `best` that the optimiser reports. -/
theorem C88_sf_surrogate_current (o : Outside d) (b : Box ℝ d) (f : List (Fin d → ℝ) → Py (List ℝ)) (optimum : Option ℝ) (eval : (m : ℕ) → SFSurr d → Samples m d → Py (Fin m → ℝ))
    (opt : Option (PopOpt o.env.S d)) (numInit seed : ℕ) {s : SFState ℝ (Fin d → ℝ) (Kriging d) o.env.S} (h : SFReachable (sfBO o b f optimum eval opt numInit seed) s) :
    ∃ v, s.surrogate.view = .ok v ∧ v.bounds = b ∧ v.sampleY = s.response ∧ IsLeast {y | y ∈ v.sampleY} s.best ∧
      ∃ σ, v.predict s.sample.length (fun i => s.sample[i]) = .ok (fun i => s.response.getD i 0, σ) ∧ ∀ i, σ i = 0 := by
  obtain ⟨hfit, _, hm⟩ := sf_fitted h
  obtain ⟨v, h1, h2, h3, _, h4⟩ := hfit.view
  exact ⟨v, h1, h2, h3, by rw [h3]; exact npMin_isLeast hm, h4⟩

/-- For an objective defined on the whole space, the stored responses of every reachable state are the objective's values at the stored samples, and `best` is the smallest of them. -/
theorem C88_sf_responses (o : Outside d) (b : Box ℝ d) {f : List (Fin d → ℝ) → Py (List ℝ)} {g : (Fin d → ℝ) → ℝ} (hf : Rowwise f g) (optimum : Option ℝ)
    (eval : (m : ℕ) → SFSurr d → Samples m d → Py (Fin m → ℝ)) (opt : Option (PopOpt o.env.S d)) (numInit seed : ℕ) {s : SFState ℝ (Fin d → ℝ) (Kriging d) o.env.S}
    (h : SFReachable (sfBO o b f optimum eval opt numInit seed) s) :
    s.response = s.sample.map g ∧ s.best = g s.bestX ∧ s.bestX ∈ s.sample ∧ ∀ x ∈ s.sample, s.best ≤ g x := by
  have key : s.response = s.sample.map g ∧ ∃ i : ℕ, npArgmin s.response = .ok i ∧ s.sample[i]? = some s.bestX := by
    refine sf_reachable_inv (fun s => s.response = s.sample.map g ∧ ∃ i : ℕ, npArgmin s.response = .ok i ∧ s.sample[i]? = some s.bestX) ?_ ?_ h
    · intro w s h
      obtain ⟨w1, i, h1, h2, h3, h4, h5, h6, _⟩ := sf_new_steps h
      exact ⟨(Except.ok.inj ((hf _).symm.trans h2)).symm, i, h5, h6⟩
    · rintro s s' ⟨i1, _⟩ h
      obtain ⟨x, w1, y, i, h1, h2, h3, h4, h5, h6, h7, h8, h9, _⟩ := sf_iterate_steps h
      have ey : y = [x].map g := (Except.ok.inj ((hf _).symm.trans h2)).symm
      refine ⟨?_, i, h8, h9⟩
      rw [h4, h5, i1, ey]; simp
  obtain ⟨hr, i, hi, hx⟩ := key
  have hm := (sf_fitted h).2.2
  have hat := npArgmin_at hm hi
  rw [hr, List.getElem?_map, hx] at hat
  refine ⟨hr, (Option.some.inj hat).symm, List.mem_of_getElem? hx, ?_⟩
  intro x hx'
  exact (npMin_isLeast hm).2 (by rw [hr]; exact List.mem_map_of_mem hx')

/-- With `EI` and a search that comes within `ε` of the minimum, the point proposed in any reachable state has, up to `ε + 4e-9`, the largest expected improvement over the optimiser's `best` of all points of the
domain, under the normal law with the surrogate's mean and standard deviation. -/
theorem C88_ei_proposal (o : Outside d) {ε : ℝ} (hde : ApproxSearch ε o.de) (b : Box ℝ d) (f : List (Fin d → ℝ) → Py (List ℝ)) (optimum : Option ℝ) (numInit seed : ℕ)
    {s : SFState ℝ (Fin d → ℝ) (Kriging d) o.env.S} (h : SFReachable (sfBO o b f optimum (fun _ => eiEval) none numInit seed) s) {x : Fin d → ℝ} {w : o.env.S}
    (hq : (sfBO o b f optimum (fun _ => eiEval) none numInit seed).query s.surrogate s.rng = .ok (x, w)) :
    ∃ v, s.surrogate.view = .ok v ∧ ∃ mean std, v.predict 1 (onePoint x) = .ok (mean, std) ∧
      ∀ x' mean' std', InBounds b x' → v.predict 1 (onePoint x') = .ok (mean', std') →
        expectedImprovement s.best (mean' 0) (std' 0) ≤ expectedImprovement s.best (mean 0) (std 0) + ε + 4e-9 := by
  obtain ⟨hfit, _, hm⟩ := sf_fitted h
  obtain ⟨v, h1, h2, h3, _⟩ := hfit.view
  have hnn : SFNonneg v := by
    unfold Kriging.view at h1
    split at h1
    · cases h1; exact ofGP_nonneg _ _
    · cases h1
  obtain ⟨v', hv', hq⟩ := Py.bind_ok.mp hq
  obtain rfl : v = v' := Except.ok.inj (h1.symm.trans hv')
  obtain ⟨hin, u, hu, hopt⟩ := (C61_default_partial hde v [] (fun _ => eiEval)).1 hq
  have hmap : ∀ x' u, (eiEval v (onePoint x')).map (· 0) = .ok u ↔ ∃ r, eiEval v (onePoint x') = .ok r ∧ r 0 = u := by
    intro x' u
    cases hr : eiEval v (onePoint x') with
    | error e => simp [Except.map]
    | ok r => simp [Except.map]
  obtain ⟨r, hr, rfl⟩ := (hmap _ _).mp hu
  obtain ⟨fm, mean, std, hl, hp, hb⟩ := C62_ei_partial hnn hr
  have hl' : IsLeast {y | y ∈ v.sampleY} s.best := by rw [h3]; exact npMin_isLeast hm
  obtain rfl := hl.unique hl'
  refine ⟨v, h1, mean, std, hp, ?_⟩
  intro x' mean' std' hx' hp'
  have hev : eiEval v (onePoint x') = .ok (fun j => -eiFormula s.best (mean' j) (std' j)) := by
    unfold eiEval
    rw [h3]
    exact Py.bind_ok.mpr ⟨_, hm, Py.bind_ok.mpr ⟨_, hp', rfl⟩⟩
  obtain ⟨fm', mean'', std'', hl'', hp'', hb'⟩ := C62_ei_partial hnn hev
  obtain rfl := hl''.unique hl'
  rw [hp'] at hp''
  cases hp''
  have h4 := hopt x' _ (by rw [h2]; exact hx') ((hmap _ _).mpr ⟨_, hev, rfl⟩)
  have h5 := abs_le.mp (hb 0).1
  have h6 := abs_le.mp (hb' 0).1
  norm_num at h5 h6 ⊢
  linarith [h5.1, h5.2, h6.1, h6.2]

/-! ## C89: the constrained optimiser -/

/-- The domain is never left: evaluated points, stored samples, every row of every reported best point, the next proposal; for every problem (any number of constraint columns and any `num_cons`). -/
theorem C89_cons_confined {c : ℕ} (o : Outside d) (ho : Lawful o) (b : Box ℝ d) (hb : ∀ j, b.low j ≤ b.high j) (f : List (Fin d → ℝ) → Py (List ℝ))
    (fCons : List (Fin d → ℝ) → Py (List (Fin c → ℝ))) (numCons : ℕ) (optimum : Option ℝ) (opt : Option (PopOpt o.env.S d)) (hopt : ∀ run, opt = some run → PropagatesErrors run)
    (numInit seed : ℕ) {s : ConsState ℝ (Fin d → ℝ) (Kriging d × List (Kriging d)) o.env.S c} (h : ConsReachable (consBO o b f fCons numCons optimum opt numInit seed) s) :
    (∀ xs ∈ s.calls, ∀ x ∈ xs, InBounds b x) ∧ (∀ x ∈ s.sample, InBounds b x) ∧ (∀ xs ∈ s.bestX, ∀ x ∈ xs, InBounds b x) ∧
      (∀ bx ∈ s.historyBestX, ∀ xs ∈ bx, ∀ x ∈ xs, InBounds b x) ∧
      ∀ x w, (consBO o b f fCons numCons optimum opt numInit seed).query s.surrogate s.rng = .ok (x, w) → InBounds b x := by
  set p := consBO o b f fCons numCons optimum opt numInit seed with hp
  have hq : ∀ (k : Kriging d × List (Kriging d)) w x w', k.1.obj.box = b → p.query k w = .ok (x, w') → InBounds b x := by
    intro k w x w' hk hq
    obtain ⟨v, hv, hq⟩ := Py.bind_ok.mp hq
    obtain ⟨vs, _, hq⟩ := Py.bind_ok.mp hq
    unfold Kriging.view at hv
    split at hv
    · cases hv
      have := cons_query_ok ho.de hopt hq
      rwa [SFSurr.ofGP, hk] at this
    · cases hv
  have htrain : ∀ (k k' : Kriging d × List (Kriging d)) xs ys gs w w', UsualGP b k.1.obj → p.train k xs ys gs w = .ok (k', w') → UsualGP b k'.1.obj := by
    intro k k' xs ys gs w w' hk ht
    obtain ⟨⟨k1, w1⟩, h1, ht⟩ := Py.bind_ok.mp ht
    obtain ⟨⟨ks, w2⟩, h2, ht⟩ := Py.bind_ok.mp ht
    cases ht
    exact (kriging_train_ok hk h1).usual
  have key : UsualGP b s.surrogate.1.obj ∧ (∀ xs ∈ s.calls, ∀ x ∈ xs, InBounds b x) ∧ (∀ x ∈ s.sample, InBounds b x) ∧ (∀ xs ∈ s.bestX, ∀ x ∈ xs, InBounds b x) ∧
      ∀ bx ∈ s.historyBestX, ∀ xs ∈ bx, ∀ x ∈ xs, InBounds b x := by
    refine cons_reachable_inv (fun s => UsualGP b s.surrogate.1.obj ∧ (∀ xs ∈ s.calls, ∀ x ∈ xs, InBounds b x) ∧ (∀ x ∈ s.sample, InBounds b x) ∧
      (∀ xs ∈ s.bestX, ∀ x ∈ xs, InBounds b x) ∧ ∀ bx ∈ s.historyBestX, ∀ xs ∈ bx, ∀ x ∈ xs, InBounds b x) ?_ ?_ h
    · intro w s h
      obtain ⟨w1, h1, h2, h3, h4, h5, h6, h7⟩ := cons_new_steps h
      have hs : ∀ x ∈ s.sample, InBounds b x := by
        have e : s.sample = (lhsSamples o.env b numInit (some seed) (o.env.seed seed w)).1 := (congrArg Prod.fst (Except.ok.inj h1)).symm
        rw [e]
        exact lhs_inBounds ho.env hb _ _ _
      have hx : ∀ xs ∈ s.bestX, ∀ x ∈ xs, InBounds b x := fun xs hxs x hx => hs x (consPara_mem h5 xs hxs x hx)
      refine ⟨htrain _ _ _ _ _ _ _ (usual_fresh b) h4, ?_, hs, hx, ?_⟩
      · rw [h6]; simpa using hs
      · rw [h7]
        intro bx hbx
        rw [List.mem_singleton.mp hbx]
        exact hx
    · rintro s s' ⟨i1, i2, i3, i4, i5⟩ h
      obtain ⟨x, w1, y, g, h1, h2, h3, h4, h5, h6, h7, h8, h9, h10⟩ := cons_iterate_steps h
      have hx := hq _ _ _ _ i1.box h1
      have hs : ∀ x ∈ s'.sample, InBounds b x := by
        rw [h5]
        intro x' hx'
        rcases List.mem_append.mp hx' with h' | h'
        · exact i3 _ h'
        · rw [List.mem_singleton.mp h']; exact hx
      have hbx : ∀ xs ∈ s'.bestX, ∀ x ∈ xs, InBounds b x := fun xs hxs x hx => hs x (consPara_mem h9 xs hxs x hx)
      refine ⟨htrain _ _ _ _ _ _ _ i1 h4, ?_, hs, hbx, ?_⟩
      · rw [h8]
        intro xs hxs
        rcases List.mem_append.mp hxs with h' | h'
        · exact i2 _ h'
        · rw [List.mem_singleton.mp h']; simpa using hx
      · rw [h10]
        intro x' hx'
        rcases List.mem_append.mp hx' with h' | h'
        · exact i5 _ h'
        · rw [List.mem_singleton.mp h']; exact hbx
  exact ⟨key.2.1, key.2.2.1, key.2.2.2.1, key.2.2.2.2, fun x w hx => hq _ _ _ _ key.1.box hx⟩

/-- The surrogates of the constrained optimiser are fitted to the whole history, in which no response column is constant. -/
theorem cons_fitted {c : ℕ} {o : Outside d} {b : Box ℝ d} {f : List (Fin d → ℝ) → Py (List ℝ)} {fCons : List (Fin d → ℝ) → Py (List (Fin c → ℝ))} {optimum : Option ℝ}
    {opt : Option (PopOpt o.env.S d)} {numInit seed : ℕ} {s : ConsState ℝ (Fin d → ℝ) (Kriging d × List (Kriging d)) o.env.S c}
    (h : ConsReachable (consBO o b f fCons c optimum opt numInit seed) s) :
    Fitted b s.sample s.objResponse s.surrogate.1 ∧ s.surrogate.2.length = c ∧ FittedCons b s.sample s.consResponse 0 s.surrogate.2 ∧
      (∃ y ∈ s.objResponse, ∃ y' ∈ s.objResponse, y ≠ y') ∧ ∀ j : Fin c, ∃ g ∈ s.consResponse, ∃ g' ∈ s.consResponse, g j ≠ g' j := by
  have htrain : ∀ (k k' : Kriging d × List (Kriging d)) xs ys gs w w', UsualGP b k.1.obj → (∀ a ∈ k.2, UsualGP b a.obj) → k.2.length = c →
      (consBO o b f fCons c optimum opt numInit seed).train k xs ys gs w = .ok (k', w') →
      Fitted b xs ys k'.1 ∧ k'.2.length = c ∧ FittedCons b xs gs 0 k'.2 ∧ (∃ y ∈ ys, ∃ y' ∈ ys, y ≠ y') ∧ ∀ j : Fin c, ∃ g ∈ gs, ∃ g' ∈ gs, g j ≠ g' j := by
    intro k k' xs ys gs w w' hk hks hl ht
    obtain ⟨⟨k1, w1⟩, h1, ht⟩ := Py.bind_ok.mp ht
    obtain ⟨⟨ks, w2⟩, h2, ht⟩ := Py.bind_ok.mp ht
    cases ht
    obtain ⟨e1, e2, e3⟩ := trainCons_ok (b := b) _ _ _ _ _ hks h2
    refine ⟨kriging_train_ok hk h1, e1.trans hl, e2, kriging_train_differ h1, ?_⟩
    intro j
    have := e3 j (by simp) (by rw [hl]; exact j.isLt)
    simpa using this
  refine cons_reachable_inv (fun s => Fitted b s.sample s.objResponse s.surrogate.1 ∧ s.surrogate.2.length = c ∧ FittedCons b s.sample s.consResponse 0 s.surrogate.2 ∧
      (∃ y ∈ s.objResponse, ∃ y' ∈ s.objResponse, y ≠ y') ∧ ∀ j : Fin c, ∃ g ∈ s.consResponse, ∃ g' ∈ s.consResponse, g j ≠ g' j) ?_ ?_ h
  · intro w s h
    obtain ⟨w1, h1, h2, h3, h4, _⟩ := cons_new_steps h
    refine htrain _ _ _ _ _ _ _ (usual_fresh b) ?_ ?_ h4
    · intro k hk
      rw [List.eq_of_mem_replicate hk]
      exact usual_fresh b
    · exact List.length_replicate
  · rintro s s' ⟨i1, i2, i3, _, _⟩ h
    obtain ⟨x, w1, y, g, h1, h2, h3, h4, h5, h6, h7, _⟩ := cons_iterate_steps h
    rw [← h5, ← h6, ← h7] at h4
    exact htrain _ _ _ _ _ _ _ i1.usual i3.usual i2 h4

/-- In every reachable state of the constrained optimiser the objective surrogate reproduces every objective response and the surrogate of constraint `j` reproduces column `j` of the constraint responses, all with
standard deviation zero. -/
theorem C88_cons_surrogates_current {c : ℕ} (o : Outside d) (b : Box ℝ d) (f : List (Fin d → ℝ) → Py (List ℝ)) (fCons : List (Fin d → ℝ) → Py (List (Fin c → ℝ))) (optimum : Option ℝ)
    (opt : Option (PopOpt o.env.S d)) (numInit seed : ℕ) {s : ConsState ℝ (Fin d → ℝ) (Kriging d × List (Kriging d)) o.env.S c}
    (h : ConsReachable (consBO o b f fCons c optimum opt numInit seed) s) :
    (∃ v, s.surrogate.1.view = .ok v ∧ v.bounds = b ∧ v.sampleY = s.objResponse ∧
      ∃ σ, v.predict s.sample.length (fun i => s.sample[i]) = .ok (fun i => s.objResponse.getD i 0, σ) ∧ ∀ i, σ i = 0) ∧
    s.surrogate.2.length = c ∧ ∀ j : Fin c, ∃ k v, s.surrogate.2[j.val]? = some k ∧ k.view = .ok v ∧
      ∃ σ, v.predict s.sample.length (fun i => s.sample[i]) = .ok (fun i => (s.consResponse.map fun g => g j).getD i 0, σ) ∧ ∀ i, σ i = 0 := by
  obtain ⟨hfit, hl, hfc, _, _⟩ := cons_fitted h
  obtain ⟨v, h1, h2, h3, _, h4⟩ := hfit.view
  refine ⟨⟨v, h1, h2, h3, h4⟩, hl, fun j => ?_⟩
  have hj : j.val < s.surrogate.2.length := by rw [hl]; exact j.isLt
  obtain ⟨hlt, hk⟩ := hfc j.val _ (List.getElem?_eq_getElem hj)
  obtain ⟨v, h1, _, _, _, h4⟩ := hk.view
  refine ⟨_, v, List.getElem?_eq_getElem hj, h1, ?_⟩
  simp only [Nat.zero_add] at h4
  exact h4

/-- For objective and constraints defined on the whole space, the stored responses of every reachable state are their values at the stored samples, and `best` is the smallest objective value of a stored sample that
meets all constraints, or infinite if there is none. -/
theorem C89_cons_responses {c : ℕ} (o : Outside d) (b : Box ℝ d) {f : List (Fin d → ℝ) → Py (List ℝ)} {g : (Fin d → ℝ) → ℝ} (hf : Rowwise f g)
    {fCons : List (Fin d → ℝ) → Py (List (Fin c → ℝ))} {gc : (Fin d → ℝ) → Fin c → ℝ} (hc : Rowwise fCons gc) (optimum : Option ℝ) (opt : Option (PopOpt o.env.S d)) (numInit seed : ℕ)
    {s : ConsState ℝ (Fin d → ℝ) (Kriging d × List (Kriging d)) o.env.S c} (h : ConsReachable (consBO o b f fCons c optimum opt numInit seed) s) :
    s.objResponse = s.sample.map g ∧ s.consResponse = s.sample.map gc ∧
      ((∃ x ∈ s.sample, (∀ j, gc x j ≤ 0) ∧ s.best = ((g x : ℝ) : WithTop ℝ)) ∨ (s.best = ⊤ ∧ ∀ x ∈ s.sample, ∃ j, 0 < gc x j)) ∧
      ∀ x ∈ s.sample, (∀ j, gc x j ≤ 0) → s.best ≤ ((g x : ℝ) : WithTop ℝ) := by
  have key : s.objResponse = s.sample.map g ∧ s.consResponse = s.sample.map gc := by
    refine cons_reachable_inv (fun s => s.objResponse = s.sample.map g ∧ s.consResponse = s.sample.map gc) ?_ ?_ h
    · intro w s h
      obtain ⟨w1, h1, h2, h3, _⟩ := cons_new_steps h
      exact ⟨(Except.ok.inj ((hf _).symm.trans h2)).symm, (Except.ok.inj ((hc _).symm.trans h3)).symm⟩
    · rintro s s' ⟨i1, i2⟩ h
      obtain ⟨x, w1, y, z, h1, h2, h3, h4, h5, h6, h7, _⟩ := cons_iterate_steps h
      have ey : y = [x].map g := (Except.ok.inj ((hf _).symm.trans h2)).symm
      have ez : z = [x].map gc := (Except.ok.inj ((hc _).symm.trans h3)).symm
      rw [h5, h6, h7, i1, i2, ey, ez]; simp
  have hfeas : ∀ i y, FeasibleAt s.objResponse s.consResponse i y ↔ ∃ x, s.sample[i]? = some x ∧ (∀ j, gc x j ≤ 0) ∧ y = g x := by
    intro i y
    rw [key.1, key.2]
    simp only [FeasibleAt, List.getElem?_map]
    cases hx : s.sample[i]? with
    | none => simp
    | some x => simp [and_comm, eq_comm]
  have hrf : OneRowEach (consBO o b f fCons c optimum opt numInit seed).f := by intro xs ys h; rw [← Except.ok.inj ((hf xs).symm.trans h)]; simp
  have hrc : OneRowEach (consBO o b f fCons c optimum opt numInit seed).fCons := by intro xs ys h; rw [← Except.ok.inj ((hc xs).symm.trans h)]; simp
  obtain ⟨hbest, _⟩ := C58_cons_best (consBO o b f fCons c optimum opt numInit seed) rfl hrf hrc h
  refine ⟨key.1, key.2, ?_, ?_⟩
  · rcases hbest with ⟨v, e, hl, _⟩ | ⟨e, _, hno⟩
    · obtain ⟨i, hi⟩ := hl.1
      obtain ⟨x, hx, hg, rfl⟩ := (hfeas i v).mp hi
      exact Or.inl ⟨x, List.mem_of_getElem? hx, hg, e⟩
    · refine Or.inr ⟨e, fun x hx => ?_⟩
      by_contra hcon
      push Not at hcon
      obtain ⟨i, hi⟩ := List.getElem?_of_mem hx
      exact hno ⟨i, g x, (hfeas i _).mpr ⟨x, hi, hcon, rfl⟩⟩
  · intro x hx hg
    obtain ⟨i, hi⟩ := List.getElem?_of_mem hx
    have hfe := (hfeas i (g x)).mpr ⟨x, hi, hg, rfl⟩
    rcases hbest with ⟨v, e, hl, _⟩ | ⟨e, _, hno⟩
    · rw [e]
      exact_mod_cast hl.2 ⟨i, hfe⟩
    · exact absurd ⟨i, g x, hfe⟩ hno

/-- For objective and constraints defined on the whole space and a correct `num_cons`: constructing the constrained optimiser succeeds exactly when on the initial design neither the objective nor any constraint is
constant, and from then on every `run_optimizer` call succeeds (whether or not a feasible point has been found). -/
theorem C89_cons_succeeds {c : ℕ} (o : Outside d) (ho : Lawful o) (hd : 0 < d) (b : Box ℝ d) (hb : ∀ j, b.low j < b.high j) {f : List (Fin d → ℝ) → Py (List ℝ)} {g : (Fin d → ℝ) → ℝ}
    (hf : Rowwise f g) {fCons : List (Fin d → ℝ) → Py (List (Fin c → ℝ))} {gc : (Fin d → ℝ) → Fin c → ℝ} (hc : Rowwise fCons gc) (optimum : Option ℝ) (numInit seed : ℕ) :
    (∀ w, (∃ s, (consBO o b f fCons c optimum none numInit seed).new w = .ok s) ↔
      (∃ x ∈ (lhsSamples o.env b numInit (some seed) (o.env.seed seed w)).1, ∃ x' ∈ (lhsSamples o.env b numInit (some seed) (o.env.seed seed w)).1, g x ≠ g x') ∧
      ∀ j, ∃ x ∈ (lhsSamples o.env b numInit (some seed) (o.env.seed seed w)).1, ∃ x' ∈ (lhsSamples o.env b numInit (some seed) (o.env.seed seed w)).1, gc x j ≠ gc x' j) ∧
    ∀ s, ConsReachable (consBO o b f fCons c optimum none numInit seed) s → ∀ maxIter stop, ∃ r, (consBO o b f fCons c optimum none numInit seed).run maxIter stop s = .ok r := by
  set p := consBO o b f fCons c optimum none numInit seed with hp
  constructor
  · intro w
    set xs := (lhsSamples o.env b numInit (some seed) (o.env.seed seed w)).1 with hxs
    constructor
    · rintro ⟨s, h⟩
      obtain ⟨_, _, _, ⟨y, hy, y', hy', hne⟩, hcd⟩ := cons_fitted (.new w h)
      obtain ⟨w1, h1, h2, h3, _⟩ := cons_new_steps h
      have e : s.sample = xs := (congrArg Prod.fst (Except.ok.inj h1)).symm
      have e2 : s.objResponse = xs.map g := by
        have h2' : f s.sample = .ok s.objResponse := h2
        rw [hf, e] at h2'
        exact (Except.ok.inj h2').symm
      have e3 : s.consResponse = xs.map gc := by
        have h3' : fCons s.sample = .ok s.consResponse := h3
        rw [hc, e] at h3'
        exact (Except.ok.inj h3').symm
      rw [e2] at hy hy'
      rw [e3] at hcd
      obtain ⟨x, hx, rfl⟩ := List.mem_map.mp hy
      obtain ⟨x', hx', rfl⟩ := List.mem_map.mp hy'
      refine ⟨⟨x, hx, x', hx', hne⟩, fun j => ?_⟩
      obtain ⟨u, hu, u', hu', hne⟩ := hcd j
      obtain ⟨x, hx, rfl⟩ := List.mem_map.mp hu
      obtain ⟨x', hx', rfl⟩ := List.mem_map.mp hu'
      exact ⟨x, hx, x', hx', hne⟩
    · rintro ⟨⟨x, hx, x', hx', hne⟩, hcd⟩
      obtain ⟨⟨k, w2⟩, h3⟩ := kriging_train_succeeds ho hb (k := freshKriging b) (usual_fresh b) (xs := xs) (ys := xs.map g) (by simp)
        ⟨_, List.mem_map_of_mem hx, _, List.mem_map_of_mem hx', hne⟩ (lhsSamples o.env b numInit (some seed) (o.env.seed seed w)).2
      obtain ⟨⟨ks, w3⟩, h4⟩ := trainCons_succeeds ho hb (xs := xs) (cons := xs.map gc) (by simp)
        (fun j => by
          obtain ⟨x, hx, x', hx', hne⟩ := hcd j
          exact ⟨_, List.mem_map_of_mem hx, _, List.mem_map_of_mem hx', hne⟩)
        (List.replicate c (freshKriging b)) 0 w2 (fun k hk => by rw [List.eq_of_mem_replicate hk]; exact usual_fresh b) (by simp)
      exact ⟨_, Py.bind_ok.mpr ⟨_, rfl, Py.bind_ok.mpr ⟨_, hf _, Py.bind_ok.mpr ⟨_, hc _, Py.bind_ok.mpr ⟨_, Py.bind_ok.mpr ⟨_, h3, Py.bind_ok.mpr ⟨_, h4, rfl⟩⟩, rfl⟩⟩⟩⟩⟩
  · intro s hs
    have hit : ∀ s, ConsReachable p s → s.consResponse.length = s.sample.length → ∃ s', p.iterate s = .ok s' := by
      intro s hs hcl
      obtain ⟨hfit, hl, hfc, hdiff, hcd⟩ := cons_fitted hs
      obtain ⟨v, hv, hvb, hvy, hvp, _⟩ := hfit.view
      obtain ⟨vs, hvs, hvsp⟩ := mapM_view _ _ hfc
      have hvy' : v.sampleY ≠ [] := by
        rw [hvy]
        obtain ⟨y, hy, _⟩ := hdiff
        exact List.ne_nil_of_mem hy
      obtain ⟨⟨⟨x, u⟩, w1⟩, hr⟩ := ho.de_total (single (fun x => do let u ← ceiEval v vs x; .ok (fun i => u i i))) b s.rng hd (fun j => (hb j).le) fun x _ => by
        obtain ⟨u, hu⟩ := ceiEval_total hvy' hvp hvsp (onePoint x)
        exact ⟨u 0 0, single_ok.mpr ⟨_, Py.bind_ok.mpr ⟨u, hu, rfl⟩, rfl⟩⟩
      have hquery : p.query s.surrogate s.rng = .ok (x, w1) := by
        refine Py.bind_ok.mpr ⟨v, hv, Py.bind_ok.mpr ⟨vs, hvs, ?_⟩⟩
        simp only [consQuery]
        rw [hvb]
        exact Py.bind_ok.mpr ⟨_, hr, rfl⟩
      have hlen : s.objResponse.length = s.sample.length := hfit.choose
      obtain ⟨y, hy, y', hy', hne⟩ := hdiff
      obtain ⟨⟨k, w2⟩, h3⟩ := kriging_train_succeeds ho hb hfit.usual (xs := s.sample ++ [x]) (ys := s.objResponse ++ [g x]) (by simp [hlen]) ⟨y, by simp [hy], y', by simp [hy'], hne⟩ w1
      obtain ⟨⟨ks, w3⟩, h4⟩ := trainCons_succeeds ho hb (xs := s.sample ++ [x]) (cons := s.consResponse ++ [gc x]) (by simp [hcl])
        (fun j => by
          obtain ⟨u, hu, u', hu', hne⟩ := hcd j
          exact ⟨u, by simp [hu], u', by simp [hu'], hne⟩) s.surrogate.2 0 w2 hfc.usual (by omega)
      exact ⟨_, Py.bind_ok.mpr ⟨_, hquery, Py.bind_ok.mpr ⟨_, hf _, Py.bind_ok.mpr ⟨_, hc _, Py.bind_ok.mpr ⟨_, Py.bind_ok.mpr ⟨_, h3, Py.bind_ok.mpr ⟨_, h4, rfl⟩⟩, rfl⟩⟩⟩⟩⟩
    have hcl : ∀ s, ConsReachable p s → s.consResponse.length = s.sample.length := by
      intro s hs
      refine cons_reachable_inv (fun s => s.consResponse.length = s.sample.length) ?_ ?_ hs
      · intro w s h
        obtain ⟨w1, h1, h2, h3, _⟩ := cons_new_steps h
        have h3' : fCons s.sample = .ok s.consResponse := h3
        rw [hc] at h3'
        rw [← Except.ok.inj h3']
        simp
      · intro s s' ih h
        obtain ⟨x, w1, y, u, h1, h2, h3, h4, h5, h6, h7, _⟩ := cons_iterate_steps h
        have h3' : fCons [x] = .ok u := h3
        rw [hc] at h3'
        rw [h5, h7, ← Except.ok.inj h3']
        simp [ih]
    intro maxIter stop
    have hloop : ∀ k s, ConsReachable p s → ∃ s', p.loop stop k s = .ok s' := by
      intro k
      induction k with
      | zero => intro s _; exact ⟨s, rfl⟩
      | succ k ih =>
        intro s hs
        unfold ConsProblem.loop
        split_ifs with hcond
        · obtain ⟨s', h'⟩ := hit s hs (hcl s hs)
          have hr : ConsReachable p s' := by
            refine .run 1 stop hs (s' := s') (b := s'.best) (x := s'.bestX) ?_
            refine Py.bind_ok.mpr ⟨s', ?_, rfl⟩
            unfold ConsProblem.loop
            rw [if_pos hcond]
            exact Py.bind_ok.mpr ⟨s', h', rfl⟩
          obtain ⟨s'', h''⟩ := ih s' hr
          exact ⟨s'', Py.bind_ok.mpr ⟨s', h', h''⟩⟩
        · exact ⟨s, rfl⟩
    obtain ⟨s', h'⟩ := hloop maxIter s hs
    exact ⟨_, Py.bind_ok.mpr ⟨s', h', rfl⟩⟩

/-- The hypotheses of `C89_cons_confined` and `C89_cons_succeeds` are met: objective `x`, constraint `x - 1/4 ≤ 0` on the unit interval (not satisfied by the initial design). -/
theorem exCons_reachable : ∃ s, ConsReachable (consBO (exOutside 1) exInterval (fun xs => .ok (xs.map fun x => x 0)) (fun xs => .ok (xs.map fun x (_ : Fin 1) => x 0 - 1 / 4)) 1 none none 2 1996) s := by
  have m0 : (fun _ => 0 + ((0 : ℝ) + 1) / 2 * (1 - 0) : Fin 1 → ℝ) ∈ (lhsSamples (exOutside 1).env exInterval 2 (some 1996) ((exOutside 1).env.seed 1996 (0 : ℕ))).1 := by
    simp only [lhsSamples, Sampling.scaleSamples, List.mem_map, exOutside, List.mem_range]
    exact ⟨_, ⟨0, by norm_num, rfl⟩, by funext j; simp [Sampling.scalePt, exInterval]⟩
  have m1 : (fun _ => 0 + ((1 : ℝ) + 1) / 2 * (1 - 0) : Fin 1 → ℝ) ∈ (lhsSamples (exOutside 1).env exInterval 2 (some 1996) ((exOutside 1).env.seed 1996 (0 : ℕ))).1 := by
    simp only [lhsSamples, Sampling.scaleSamples, List.mem_map, exOutside, List.mem_range]
    exact ⟨_, ⟨1, by norm_num, rfl⟩, by funext j; simp [Sampling.scalePt, exInterval]⟩
  obtain ⟨s, hs⟩ := ((C89_cons_succeeds (exOutside 1) (exOutside_lawful 1) one_pos exInterval (fun _ => by simp [exInterval]) (f := fun xs => .ok (xs.map fun x => x 0)) (g := fun x => x 0)
    (fun _ => rfl) (fCons := fun xs => .ok (xs.map fun x (_ : Fin 1) => x 0 - 1 / 4)) (gc := fun x _ => x 0 - 1 / 4) (fun _ => rfl) none 2 1996).1 (0 : ℕ)).mpr
      ⟨⟨_, m0, _, m1, by norm_num⟩, fun _ => ⟨_, m0, _, m1, by norm_num⟩⟩
  exact ⟨s, .new _ hs⟩

/-! ## C90: the multi-fidelity optimiser -/

/-- The domain is never left by either fidelity: stored samples, points evaluated in the loop, reported best points and the next proposal, whatever the problem, surrogate, acquisition and cost ratios. -/
theorem C90_mf_confined (o : Outside d) (ho : Lawful o) (b : Box ℝ d) (hb : ∀ j, b.low j ≤ b.high j) (hf lf : List (Fin d → ℝ) → Py (List ℝ)) (optimum : Option ℝ)
    {query : MFQuery o.env.S d} (hquery : LibraryMFQuery o.de query) (name : String) (seed : ℕ) {s : MFState ℝ (Fin d → ℝ) (MFModel d) (o.env.S × List ℕ)}
    (h : MFReachable (mfBO o b hf lf optimum query name seed) s) :
    (∀ x ∈ s.sampleH, InBounds b x) ∧ (∀ x ∈ s.sampleL, InBounds b x) ∧ (∀ c ∈ s.calls, ∀ x ∈ c.2, InBounds b x) ∧ InBounds b s.bestX ∧ (∀ x ∈ s.historyBestX, InBounds b x) ∧
      ∀ cr x fid w, (mfBO o b hf lf optimum query name seed).query s.surrogate cr s.best s.rng = .ok ((x, fid), w) → InBounds b x ∧ (fid = 0 ∨ fid = 1) := by
  set p := mfBO o b hf lf optimum query name seed with hp
  have hq : ∀ (m : MFModel d) cr best w x fid w', (∀ v b', m.view = .ok v → v.bound = .ok b' → b' = b) → p.query m cr best w = .ok ((x, fid), w') →
      InBounds b x ∧ (fid = 0 ∨ fid = 1) := by
    intro m cr best w x fid w' hm hq
    obtain ⟨v, hv, hq⟩ := Py.bind_ok.mp hq
    obtain ⟨⟨r, w1⟩, hr, hq⟩ := Py.bind_ok.mp hq
    cases hq
    obtain ⟨b', hb', hin, hfid⟩ := mf_query_ok ho.de hquery hr
    rw [hm v b' hv hb'] at hin
    exact ⟨hin, hfid⟩
  have htrain : ∀ (m m' : MFModel d) xs ys w w', UsualMF b m → p.train m xs ys w = .ok (m', w') →
      UsualMF b m' ∧ ∀ v b', m'.view = .ok v → v.bound = .ok b' → b' = b := by
    intro m m' xs ys w w' hm ht
    obtain ⟨⟨m1, w1⟩, h1, ht⟩ := Py.bind_ok.mp ht
    cases ht
    obtain ⟨e1, _, v, hv, e2, e3⟩ := mfModel_train_ok hm h1
    refine ⟨e1, ?_⟩
    intro v' b' hv' hb'
    obtain rfl : v = v' := Except.ok.inj (hv.symm.trans hv')
    cases hck : m'.isCK with
    | true => rw [e2 hck] at hb'; cases hb'
    | false => rw [(e3 hck).1] at hb'; exact (Except.ok.inj hb').symm
  have key : (UsualMF b s.surrogate ∧ ∀ v b', s.surrogate.view = .ok v → v.bound = .ok b' → b' = b) ∧ (∀ x ∈ s.sampleH, InBounds b x) ∧ (∀ x ∈ s.sampleL, InBounds b x) ∧
      (∀ c ∈ s.calls, ∀ x ∈ c.2, InBounds b x) ∧ InBounds b s.bestX ∧ ∀ x ∈ s.historyBestX, InBounds b x := by
    refine mf_reachable_inv (fun s => (UsualMF b s.surrogate ∧ ∀ v b', s.surrogate.view = .ok v → v.bound = .ok b' → b' = b) ∧ (∀ x ∈ s.sampleH, InBounds b x) ∧
      (∀ x ∈ s.sampleL, InBounds b x) ∧ (∀ c ∈ s.calls, ∀ x ∈ c.2, InBounds b x) ∧ InBounds b s.bestX ∧ ∀ x ∈ s.historyBestX, InBounds b x) ?_ ?_ h
    · intro w s h
      obtain ⟨w1, su, i, h1, h2, h3, h4, h5, h6, h7, h8, h9⟩ := mf_new_steps h
      have hin := C22_mf_bounds_shared_partial o.env ho.env false b hb 2 false none _ _ _ (mfInit_ok h1)
      have hH : ∀ x ∈ s.sampleH, InBounds b x := hin _ (by simp)
      have hx := hH _ (List.mem_of_getElem? h7)
      refine ⟨htrain _ _ _ _ _ _ (freshMF_ok h3).1 h4, hH, hin _ (by simp), by rw [h8]; simp, hx, ?_⟩
      rw [h9]; simpa using hx
    · rintro cr s s' ⟨i1, i2, i3, i4, i5, i6⟩ h
      obtain ⟨x, fid, w1, y, h1, h2, h3, h4, h5⟩ := mf_iterate_steps h
      have hx := (hq _ _ _ _ _ _ _ i1.2 h1).1
      have hbx : InBounds b s'.bestX := by rcases h4 with h4 | h4 <;> rw [h4] <;> assumption
      have happ : ∀ l : List (Fin d → ℝ), (∀ x ∈ l, InBounds b x) → ∀ x' ∈ l ++ [x], InBounds b x' := by
        intro l hl x' hx'
        rcases List.mem_append.mp hx' with h' | h'
        · exact hl _ h'
        · rw [List.mem_singleton.mp h']; exact hx
      have hcall : ∀ bb : Bool, ∀ c ∈ s.calls ++ [(bb, [x])], ∀ x' ∈ c.2, InBounds b x' := by
        intro bb c hc
        rcases List.mem_append.mp hc with h' | h'
        · exact i4 _ h'
        · rw [List.mem_singleton.mp h']; simpa using hx
      refine ⟨htrain _ _ _ _ _ _ i1.1 h2, ?_, ?_, ?_, hbx, ?_⟩
      · rcases h3 with h3 | h3 <;> rw [h3.2.2.1]
        · exact happ _ i2
        · exact i2
      · rcases h3 with h3 | h3 <;> rw [h3.2.2.2.1]
        · exact i3
        · exact happ _ i3
      · rcases h3 with h3 | h3 <;> rw [h3.2.2.2.2.2.2] <;> exact hcall _
      · rw [h5]
        intro x' hx'
        rcases List.mem_append.mp hx' with h' | h'
        · exact i6 _ h'
        · rw [List.mem_singleton.mp h']; exact hbx
  exact ⟨key.2.1, key.2.2.1, key.2.2.2.1, key.2.2.2.2.1, key.2.2.2.2.2, fun cr x fid w hx => hq _ _ _ _ _ _ _ key.1.2 hx⟩

/-- With hierarchical or scaled Kriging the surrogate of every reachable state reproduces every high-fidelity response of the history; with co-Kriging no library acquisition can propose a point: the first
iteration raises `AttributeError`. -/
theorem C90_mf_surrogate (o : Outside d) (b : Box ℝ d) (hf lf : List (Fin d → ℝ) → Py (List ℝ)) (optimum : Option ℝ) (query : MFQuery o.env.S d) (name : String) (seed : ℕ)
    {s : MFState ℝ (Fin d → ℝ) (MFModel d) (o.env.S × List ℕ)} (h : MFReachable (mfBO o b hf lf optimum query name seed) s) :
    (name ≠ "CoKriging" → ∃ v, s.surrogate.view = .ok v ∧ v.bound = .ok b ∧ v.predict s.sampleH.length (fun i => s.sampleH[i]) = .ok fun i => s.responseH.getD i 0) ∧
    (name = "CoKriging" → ∃ v, s.surrogate.view = .ok v ∧ v.bound = .error .attributeError) := by
  have htrain : ∀ (m m' : MFModel d) xs ys w w', UsualMF b m → (m.isCK = true ↔ name = "CoKriging") → (mfBO o b hf lf optimum query name seed).train m xs ys w = .ok (m', w') →
      UsualMF b m' ∧ (m'.isCK = true ↔ name = "CoKriging") ∧ ∃ v, m'.view = .ok v ∧ (m'.isCK = true → v.bound = .error .attributeError) ∧
      (m'.isCK = false → v.bound = .ok b ∧ v.predict xs.1.length (rows xs.1) = .ok fun i => ys.1.getD i 0) := by
    intro m m' xs ys w w' hm hck ht
    obtain ⟨⟨m1, w1⟩, h1, ht⟩ := Py.bind_ok.mp ht
    cases ht
    obtain ⟨e1, e2, e3⟩ := mfModel_train_ok hm h1
    exact ⟨e1, by rw [e2]; exact hck, e3⟩
  have key : UsualMF b s.surrogate ∧ (s.surrogate.isCK = true ↔ name = "CoKriging") ∧ ∃ v, s.surrogate.view = .ok v ∧ (s.surrogate.isCK = true → v.bound = .error .attributeError) ∧
      (s.surrogate.isCK = false → v.bound = .ok b ∧ v.predict s.sampleH.length (rows s.sampleH) = .ok fun i => s.responseH.getD i 0) := by
    refine mf_reachable_inv (fun s => UsualMF b s.surrogate ∧ (s.surrogate.isCK = true ↔ name = "CoKriging") ∧ ∃ v, s.surrogate.view = .ok v ∧
      (s.surrogate.isCK = true → v.bound = .error .attributeError) ∧
      (s.surrogate.isCK = false → v.bound = .ok b ∧ v.predict s.sampleH.length (rows s.sampleH) = .ok fun i => s.responseH.getD i 0)) ?_ ?_ h
    · intro w s h
      obtain ⟨w1, su, i, h1, h2, h3, h4, _⟩ := mf_new_steps h
      exact htrain _ _ _ _ _ _ (freshMF_ok h3).1 (freshMF_ok h3).2 h4
    · rintro cr s s' ⟨i1, i2, _⟩ h
      obtain ⟨x, fid, w1, y, h1, h2, _⟩ := mf_iterate_steps h
      exact htrain _ _ _ _ _ _ i1 i2 h2
  obtain ⟨_, hck, v, hv, h1, h2⟩ := key
  refine ⟨fun hn => ?_, fun hn => ⟨v, hv, h1 (hck.mpr hn)⟩⟩
  obtain ⟨h3, h4⟩ := h2 (by
    cases hc : s.surrogate.isCK with
    | true => exact absurd (hck.mp hc) hn
    | false => rfl)
  exact ⟨v, hv, h3, h4⟩

/-- For problems defined on the whole space, the stored responses of every reachable state are the problem's values at the stored samples, for each fidelity separately; and the reported best is the smallest stored
high-fidelity response, attained at the reported point. -/
theorem C90_mf_responses (o : Outside d) (b : Box ℝ d) {hf lf : List (Fin d → ℝ) → Py (List ℝ)} {g l : (Fin d → ℝ) → ℝ} (hg : Rowwise hf g) (hl : Rowwise lf l) (optimum : Option ℝ)
    (query : MFQuery o.env.S d) (name : String) (seed : ℕ) {s : MFState ℝ (Fin d → ℝ) (MFModel d) (o.env.S × List ℕ)} (h : MFReachable (mfBO o b hf lf optimum query name seed) s) :
    s.responseH = s.sampleH.map g ∧ s.responseL = s.sampleL.map l ∧ s.bestX ∈ s.sampleH ∧ s.best = g s.bestX ∧ ∀ x ∈ s.sampleH, s.best ≤ g x := by
  set p := mfBO o b hf lf optimum query name seed with hp
  have hcall : ∀ xs ys, p.call xs = .ok ys → ys.1 = xs.1.map g ∧ ys.2 = xs.2.map l := by
    intro xs ys h
    obtain ⟨y1, h1, h⟩ := Py.bind_ok.mp h
    obtain ⟨y2, h2, h⟩ := Py.bind_ok.mp h
    cases h
    exact ⟨(Except.ok.inj ((hg _).symm.trans h1)).symm, (Except.ok.inj ((hl _).symm.trans h2)).symm⟩
  have hrows : MFRows p :=
    { hf := by intro xs ys h; rw [← Except.ok.inj ((hg xs).symm.trans h)]; simp
      lf := by intro xs ys h; rw [← Except.ok.inj ((hl xs).symm.trans h)]; simp
      call := by intro xs ys h; rw [(hcall xs ys h).1, (hcall xs ys h).2]; simp }
  have key : s.responseH = s.sampleH.map g ∧ s.responseL = s.sampleL.map l := by
    refine mf_reachable_inv (fun s => s.responseH = s.sampleH.map g ∧ s.responseL = s.sampleL.map l) ?_ ?_ h
    · intro w s h
      obtain ⟨w1, su, i, h1, h2, _⟩ := mf_new_steps h
      exact hcall _ _ h2
    · rintro cr s s' ⟨i1, i2⟩ h
      obtain ⟨x, fid, w1, y, h1, h2, h3, _⟩ := mf_iterate_steps h
      rcases h3 with ⟨_, e, e1, e2, e3, e4, _⟩ | ⟨_, e, e1, e2, e3, e4, _⟩
      · have ey : y = [x].map g := (Except.ok.inj ((hg _).symm.trans e)).symm
        rw [e1, e2, e3, e4, i1, i2, ey]; simp
      · have ey : y = [x].map l := (Except.ok.inj ((hl _).symm.trans e)).symm
        rw [e1, e2, e3, e4, i1, i2, ey]; simp
  obtain ⟨hbest, ⟨j, hj, hj'⟩, _⟩ := C54_mf_best p hrows h
  rw [key.1, List.getElem?_map, hj] at hj'
  refine ⟨key.1, key.2, List.mem_of_getElem? hj, (Option.some.inj hj').symm, ?_⟩
  intro x hx
  exact hbest.2 (by rw [key.1]; exact List.mem_map_of_mem hx)

/-- So with co-Kriging `run_optimizer` raises as soon as an iteration is due. -/
theorem C90_mf_cokriging_fails (o : Outside d) (ho : Lawful o) (b : Box ℝ d) (hf lf : List (Fin d → ℝ) → Py (List ℝ)) (optimum : Option ℝ) {query : MFQuery o.env.S d}
    (hquery : LibraryMFQuery o.de query) (seed : ℕ) {s : MFState ℝ (Fin d → ℝ) (MFModel d) (o.env.S × List ℕ)} (h : MFReachable (mfBO o b hf lf optimum query "CoKriging" seed) s)
    (maxIter : ℕ) (cr stop : ℝ) (hgo : 0 < maxIter) (hstop : BO.updateError s.best optimum > stop) :
    ∃ e, (mfBO o b hf lf optimum query "CoKriging" seed).run maxIter cr stop s = .error e := by
  obtain ⟨k, rfl⟩ : ∃ k, maxIter = k + 1 := ⟨maxIter - 1, by omega⟩
  cases hr : (mfBO o b hf lf optimum query "CoKriging" seed).run (k + 1) cr stop s with
  | error e => exact ⟨e, rfl⟩
  | ok s' =>
    exfalso
    unfold MFProblem.run MFProblem.loop at hr
    rw [if_pos (show BO.updateError s.best (mfBO o b hf lf optimum query "CoKriging" seed).optimum > stop from hstop)] at hr
    obtain ⟨s1, h1, _⟩ := Py.bind_ok.mp hr
    obtain ⟨x, fid, w1, y, h2, _⟩ := mf_iterate_steps h1
    obtain ⟨v, hv, hbound⟩ := (C90_mf_surrogate o b hf lf optimum query "CoKriging" seed h).2 rfl
    obtain ⟨v', hv', h2⟩ := Py.bind_ok.mp h2
    obtain rfl : v = v' := Except.ok.inj (hv.symm.trans hv')
    obtain ⟨⟨r, w2⟩, hr2, h2⟩ := Py.bind_ok.mp h2
    obtain ⟨b', hb', _⟩ := mf_query_ok ho.de hquery (x := r.1) (fid := r.2) hr2
    rw [hbound] at hb'
    cases hb'

/-! ## C91: the caller's `num_init` list -/

/-- A construction that succeeds was given two sizes, the first not larger than the second, and the new optimiser has that many samples of each fidelity. -/
theorem C91_mf_sizes_partial (o : Outside d) (ho : Lawful o) (b : Box ℝ d) (hf lf : List (Fin d → ℝ) → Py (List ℝ)) (optimum : Option ℝ) (query : MFQuery o.env.S d) (name : String) (seed : ℕ)
    (w : o.env.S) (l : List ℕ) {s : MFState ℝ (Fin d → ℝ) (MFModel d) (o.env.S × List ℕ)} (h : (mfBO o b hf lf optimum query name seed).new (w, l) = .ok s) :
    l = [s.sampleH.length, s.sampleL.length] ∧ s.sampleH.length ≤ s.sampleL.length := by
  obtain ⟨w1, su, i, h1, h2, h3, h4, _⟩ := mf_new_steps h
  have h5 := mfInit_ok h1
  have hsz := C20_mf_sizes o.env ho.env.toContract _ _ _ _ h5
  have hl : l = [s.sampleH.length, s.sampleL.length] := by simpa using hsz.symm
  have hmono : l.Pairwise (· ≤ ·) := ((C20_mf_returns_iff o.env ho.env.toContract _ _ _ _).mp ⟨_, h5⟩).1
  refine ⟨hl, ?_⟩
  rw [hl] at hmono
  simpa using hmono

/-- The rest of C91 is false, for every construction that succeeds: the caller's list object (second component of the state) is empty afterwards, and constructing another optimiser with the same list object raises
`IndexError`, whatever its problem, surrogate and seed. -/
theorem C91_mf_list_emptied_counterexample (o : Outside d) (b : Box ℝ d) (hf lf : List (Fin d → ℝ) → Py (List ℝ)) (optimum : Option ℝ) (query : MFQuery o.env.S d) (name : String) (seed : ℕ)
    (w : o.env.S) (l : List ℕ) {s : MFState ℝ (Fin d → ℝ) (MFModel d) (o.env.S × List ℕ)} (h : (mfBO o b hf lf optimum query name seed).new (w, l) = .ok s) :
    s.rng.2 = [] ∧ l ≠ [] ∧ ∀ b' hf' lf' optimum' query' name' seed' w', (mfBO o b' hf' lf' optimum' query' name' seed').new (w', s.rng.2) = .error .indexError := by
  obtain ⟨w1, su, i, h1, h2, h3, h4, _⟩ := mf_new_steps h
  have hleft := C25_mf_list_emptied o.env _ _ _ _ (mfInit_ok h1)
  have hrng : s.rng.2 = w1.2 := by
    obtain ⟨⟨m1, w2⟩, _, ht⟩ := Py.bind_ok.mp h4
    exact (congrArg (fun r => r.2.2) (Except.ok.inj ht)).symm
  refine ⟨hrng.trans hleft.1, fun hc => hleft.2 (by rw [hleft.1]; exact hc.symm), ?_⟩
  intro b' hf' lf' optimum' query' name' seed' w'
  rw [hrng, hleft.1]
  rfl

/-- The hypotheses of C90 and C91 are met: scaled Kriging on the unit interval with `2x` and `x`, two samples of each fidelity. -/
theorem exMF_reachable : ∃ s, (mfBO (exOutside 1) exInterval (fun xs => .ok (xs.map fun x => 2 * x 0)) (fun xs => .ok (xs.map fun x => x 0)) none (vfeiQuery none (exOutside 1).de)
    "ScaledKriging" 1996).new ((0 : ℕ), [2, 2]) = .ok s := by
  set xs : List (Fin 1 → ℝ) := Sampling.mfScale exInterval ((List.range 2).map (fun i : ℕ => fun _ => ((i : ℝ) + 1) / (2 : ℕ))) with hxs
  have hx : xs = [fun _ => 1 / 2, fun _ => 1] := by
    simp [hxs, Sampling.mfScale, List.range_succ, exInterval]
  have hinit : mfInit (exOutside 1) exInterval 1996 ((0 : ℕ), [2, 2]) = .ok ((xs, xs), ((1996 : ℕ), [])) := rfl
  have hxl : xs.length = 2 := by rw [hx]; rfl
  have hlo := exOutside_lawful 1
  have hb : ∀ j, exInterval.low j < exInterval.high j := fun _ => by simp [exInterval]
  have hl1 : (xs.map fun x => 2 * x 0).length = xs.length := by simp
  have hl2 : (xs.map fun x => x 0).length = xs.length := by simp
  set wl := (exOutside 1).world (freshGP exInterval).kernel (1996 : ℕ) with hwl
  have hcol2 : ∀ i : Fin xs.length, column (xs.map fun x => x 0) hl2 i = xs[i] 0 := by intro i; simp [column]
  have hcol1 : ∀ i : Fin xs.length, column (xs.map fun x => 2 * x 0) hl1 i = 2 * xs[i] 0 := by intro i; simp [column]
  have hv0 : xs[(⟨0, by omega⟩ : Fin xs.length)] 0 = 1 / 2 := by
    have : xs[0]? = some (fun _ => 1 / 2) := by rw [hx]; rfl
    have h' := (List.getElem?_eq_some_iff.mp this).2
    exact congrFun h' 0
  have hv1 : xs[(⟨1, by omega⟩ : Fin xs.length)] 0 = 1 := by
    have : xs[1]? = some (fun _ => 1) := by rw [hx]; rfl
    have h' := (List.getElem?_eq_some_iff.mp this).2
    exact congrFun h' 0
  obtain ⟨lf', lfFit, hlf⟩ := usual_train_succeeds hb (usual_fresh exInterval) (w := wl.1) hlo.mini (by simp [hwl, Outside.world, exOutside]) (rows xs) (column (xs.map fun x => x 0) hl2)
    ⟨0, by omega⟩ ⟨1, by omega⟩ (by rw [hcol2, hcol2, hv0, hv1]; norm_num)
  have hf := C34_interpolation _ _ _ _ rfl _ _ hlf
  set wd := (exOutside 1).world (freshGP exInterval).kernel wl.2 with hwd
  obtain ⟨disc', discFit, hd⟩ := usual_train_succeeds hb (usual_fresh exInterval) (w := wd.1) hlo.mini (by simp [hwd, Outside.world, exOutside]) (rows xs)
    (getDisc 1 (column (xs.map fun x => x 0) hl2) (column (xs.map fun x => 2 * x 0) hl1)) ⟨0, by omega⟩ ⟨1, by omega⟩ (by
      simp only [getDisc]
      rw [hcol2, hcol2, hcol1, hcol1, hv0, hv1]; norm_num)
  have hsk : ∃ g' t, (SKObj.new exInterval (freshGP exInterval) (freshGP exInterval) false .error 1e-2 1e1 none).train
      { lf := wl.1, disc := wd.1, mini := (exOutside 1).mini, x0 := 0, bumpEvals := [], bumpX := 0 } (rows xs) (column (xs.map fun x => 2 * x 0) hl1) (rows xs)
      (column (xs.map fun x => x 0) hl2) = .ok (g', t) :=
    ⟨_, _, Py.bind_ok.mpr ⟨_, hlf, Py.bind_ok.mpr ⟨_, hf, Py.bind_ok.mpr ⟨(1, freshGP exInterval), rfl, Py.bind_ok.mpr ⟨_, hd, rfl⟩⟩⟩⟩⟩
  obtain ⟨g', t, hsk⟩ := hsk
  have htrain : ∃ r, MFModel.train (exOutside 1) (.sk (SKObj.new exInterval (freshGP exInterval) (freshGP exInterval) false .error 1e-2 1e1 none) none) (xs, xs)
      (xs.map (fun x => 2 * x 0), xs.map fun x => x 0) (1996 : ℕ) = .ok r := by
    refine ⟨(.sk g' (some ⟨_, _, t⟩), wd.2), ?_⟩
    unfold MFModel.train
    rw [dif_pos ⟨hl1, hl2⟩]
    exact Py.bind_ok.mpr ⟨_, hsk, rfl⟩
  obtain ⟨⟨m, w1⟩, htrain⟩ := htrain
  have hne : (xs.map fun x => 2 * x 0) ≠ [] := by rw [hx]; simp
  obtain ⟨mn, hm⟩ := npMin_succeeds hne
  obtain ⟨i, hi⟩ := npArgmin_succeeds hne
  have hat := npArgmin_at hm hi
  rw [List.getElem?_map] at hat
  obtain ⟨bx, hbx, _⟩ := Option.map_eq_some_iff.mp hat
  exact ⟨_, Py.bind_ok.mpr ⟨_, hinit, Py.bind_ok.mpr ⟨_, rfl, Py.bind_ok.mpr ⟨_, rfl, Py.bind_ok.mpr ⟨_, Py.bind_ok.mpr ⟨_, htrain, rfl⟩, Py.bind_ok.mpr ⟨_, hm, Py.bind_ok.mpr ⟨_, hi,
    Py.bind_ok.mpr ⟨_, npRow_ok.mpr hbx, rfl⟩⟩⟩⟩⟩⟩⟩⟩

end Mfpml.Props
