import Mathlib.Data.List.FinRange
import Mathlib.Algebra.BigOperators.Group.List.Basic
import Verif.Spec.ConstraintOrder
import Verif.Props.BOAssembled

/-!
# C171: the order of the constraints does not matter
-/

namespace Mfpml.Props

open Mfpml Mfpml.Spec Mfpml.Acq Mfpml.BO Mfpml.GP
open Mfpml.EA (Box)

set_option linter.unusedSectionVars false

variable {d c : ℕ}

/-! ## The best feasible sample -/

theorem card_reorder (σ : Equiv.Perm (Fin c)) (row : Fin c → ℝ) :
    (Finset.univ.filter fun j => reorder σ row j ≤ 0).card = (Finset.univ.filter fun j => row j ≤ 0).card := by
  refine Finset.card_bij (fun j _ => σ j) ?_ ?_ ?_
  · intro j hj
    exact Finset.mem_filter.mpr ⟨Finset.mem_univ _, (Finset.mem_filter.mp hj).2⟩
  · intro a _ b _ h
    exact σ.injective h
  · intro j hj
    refine ⟨σ.symm j, Finset.mem_filter.mpr ⟨Finset.mem_univ _, ?_⟩, by simp⟩
    have := (Finset.mem_filter.mp hj).2
    simpa [reorder] using this

theorem feasibleIndex_reorder (σ : Equiv.Perm (Fin c)) (n : ℕ) (cons : List (Fin c → ℝ)) : feasibleIndex n (cons.map (reorder σ)) = feasibleIndex n cons := by
  unfold feasibleIndex
  rw [List.length_map]
  refine List.filter_congr fun i _ => ?_
  rw [List.getElem?_map]
  cases h : cons[i]? with
  | none => rfl
  | some row => simp only [Option.map_some, card_reorder]

theorem consPara_reorder {X : Type} (σ : Equiv.Perm (Fin c)) (n : ℕ) (sample : List X) (obj : List ℝ) (cons : List (Fin c → ℝ)) :
    consPara n sample obj (cons.map (reorder σ)) = consPara n sample obj cons := by
  simp only [consPara, consBest, feasibleIndex_reorder]

/-! ## The acquisition -/

theorem pofColumns_total {x : Samples 1 d} : ∀ {cons : List (SFSurr d)}, (∀ v ∈ cons, ∀ m X, ∃ μ σ, v.predict m X = .ok (μ, σ)) →
    pofColumns x cons = .ok (cons.map fun v => ((v.predict 1 x).toOption.getD (0, 0)))
  | [], _ => rfl
  | v :: vs, h => by
    obtain ⟨μ, σ, e⟩ := h v (by simp) 1 x
    have ih := pofColumns_total (x := x) (cons := vs) fun u hu => h u (by simp [hu])
    rw [pofColumns, e]
    refine Py.bind_ok.mpr ⟨_, rfl, ?_⟩
    rw [if_pos rfl, ih]
    simp [e, Except.toOption]
    rfl

/-- The constrained acquisition does not depend on the order of the constraint surrogates. -/
theorem ceiEval_perm (obj : SFSurr d) {cons cons' : List (SFSurr d)} (hp : cons'.Perm cons) (h : ∀ v ∈ cons, ∀ m X, ∃ μ σ, v.predict m X = .ok (μ, σ)) (x : Samples 1 d) :
    ceiEval obj cons' x = ceiEval obj cons x := by
  have e : ceiPof cons' x = ceiPof cons x := by
    unfold ceiPof
    rw [pofColumns_total h, pofColumns_total fun v hv => h v (hp.mem_iff.mp hv)]
    refine congrArg Except.ok (funext fun j => ?_)
    exact ((hp.map _).map _).prod_eq
  unfold ceiEval
  rw [e]

theorem consQuery_perm {W : Type} (opt : Option (PopOpt W d)) (de : DiffEvo W d) (obj : SFSurr d) {cons cons' : List (SFSurr d)} (hp : cons'.Perm cons)
    (h : ∀ v ∈ cons, ∀ m X, ∃ μ σ, v.predict m X = .ok (μ, σ)) (w : W) : consQuery opt de obj cons' w = consQuery opt de obj cons w := by
  cases opt with
  | none => simp only [consQuery, ceiEval_perm obj hp h]
  | some run => rfl

/-! ## The trainings -/

/-- The random state after one training. -/
def afterTraining (o : Outside d) (w : o.env.S) : o.env.S := (o.uniform 11 d (fun _ => -2) (fun _ => 3) w).2

/-- `k` trained with these data becomes `k'`, whatever the random state. -/
def TrainsTo (o : Outside d) (xs : List (Fin d → ℝ)) (k : Kriging d) (ys : List ℝ) (k' : Kriging d) : Prop := ∀ w, k.train o xs ys w = .ok (k', afterTraining o w)

theorem trainsTo_of {o : Outside d} (ho : StartFree o) {b : Box ℝ d} {k k' : Kriging d} (hk : UsualGP b k.obj) {xs : List (Fin d → ℝ)} {ys : List ℝ} {w w' : o.env.S}
    (h : k.train o xs ys w = .ok (k', w')) : w' = afterTraining o w ∧ TrainsTo o xs k ys k' := by
  have key : ∀ u u' k1, k.train o xs ys u = .ok (k1, u') → u' = afterTraining o u := by
    intro u u' k1 h
    unfold Kriging.train at h
    split_ifs at h with hl
    obtain ⟨⟨gp, t⟩, h1, h⟩ := Py.bind_ok.mp h
    cases h
    simp only [Outside.world, afterTraining, hk.low, hk.high]
  refine ⟨key _ _ _ h, fun u => ?_⟩
  have e := ho k xs ys u w
  rw [h] at e
  cases h2 : k.train o xs ys u with
  | error x => rw [h2] at e; cases e
  | ok r =>
    rw [h2] at e
    obtain ⟨k1, u'⟩ := r
    have e1 : k1 = k' := Except.ok.inj e
    subst e1
    rw [key _ _ _ h2]

theorem trainCons_iff {o : Outside d} (ho : StartFree o) {b : Box ℝ d} (xs : List (Fin d → ℝ)) (cons : List (Fin c → ℝ)) : ∀ (ks : List (Kriging d)) (ii : ℕ) (w : o.env.S) (L : List (Kriging d)) (w' : o.env.S),
    (∀ k ∈ ks, UsualGP b k.obj) → (trainCons o xs cons ii ks w = .ok (L, w') ↔ w' = (afterTraining o)^[ks.length] w ∧ L.length = ks.length ∧
      ∀ (j : ℕ) k k', ks[j]? = some k → L[j]? = some k' → ∃ h : ii + j < c, TrainsTo o xs k (cons.map fun g => g ⟨ii + j, h⟩) k') := by
  intro ks
  induction ks with
  | nil =>
    intro ii w L w' _
    constructor
    · intro h
      cases h
      exact ⟨rfl, rfl, by simp⟩
    · rintro ⟨rfl, h, _⟩
      rw [List.length_nil] at h
      rw [List.eq_nil_of_length_eq_zero h]
      rfl
  | cons k ks ih =>
    intro ii w L w' hk
    constructor
    · intro h
      rw [trainCons] at h
      obtain ⟨y, h1, h⟩ := Py.bind_ok.mp h
      obtain ⟨⟨k', w1⟩, h2, h⟩ := Py.bind_ok.mp h
      obtain ⟨⟨ks', w2⟩, h3, h⟩ := Py.bind_ok.mp h
      cases h
      obtain ⟨rfl, ht⟩ := trainsTo_of ho (hk k (by simp)) h2
      obtain ⟨e1, e2, e3⟩ := (ih _ _ _ _ fun a ha => hk a (by simp [ha])).mp h3
      unfold consColumn at h1
      split_ifs at h1 with hc
      cases h1
      refine ⟨by rw [e1, List.length_cons, Function.iterate_succ_apply], by simp [e2], ?_⟩
      intro j a a' ha ha'
      cases j with
      | zero =>
        simp only [List.getElem?_cons_zero, Option.some.injEq] at ha ha'
        subst ha; subst ha'
        exact ⟨hc, ht⟩
      | succ j =>
        simp only [List.getElem?_cons_succ] at ha ha'
        obtain ⟨hj, h'⟩ := e3 j a a' ha ha'
        have e : ii + 1 + j = ii + (j + 1) := by omega
        exact ⟨by omega, by simpa only [e] using h'⟩
    · rintro ⟨rfl, hl, hj⟩
      cases L with
      | nil => simp at hl
      | cons k' L =>
        obtain ⟨hc, ht⟩ := hj 0 k k' rfl rfl
        rw [trainCons]
        refine Py.bind_ok.mpr ⟨_, dif_pos hc, Py.bind_ok.mpr ⟨_, ht w, Py.bind_ok.mpr ⟨(L, (afterTraining o)^[(k :: ks).length] w), ?_, rfl⟩⟩⟩
        refine (ih _ _ _ _ fun a ha => hk a (by simp [ha])).mpr ⟨by rw [List.length_cons, Function.iterate_succ_apply], by simpa using hl, ?_⟩
        intro j a a' ha ha'
        obtain ⟨hj', h'⟩ := hj (j + 1) a a' (by simpa using ha) (by simpa using ha')
        have e : ii + (j + 1) = ii + 1 + j := by omega
        exact ⟨by omega, by simpa only [e] using h'⟩

/-- The list in the other order. -/
theorem reordered_perm {α : Type} (σ : Equiv.Perm (Fin c)) {L L' : List α} (h : L.length = c) (h' : L'.length = c) (he : ∀ i : Fin c, L'[i.val]? = L[(σ i).val]?) : L'.Perm L := by
  have e : L = List.ofFn fun i : Fin c => L[i.val] := by
    refine List.ext_getElem (by simp [h]) fun i _ _ => by simp
  have e' : L' = List.ofFn ((fun i : Fin c => L[i.val]) ∘ σ) := by
    refine List.ext_getElem (by simp [h']) fun i h1 _ => ?_
    have := he ⟨i, by omega⟩
    rw [List.getElem?_eq_getElem h1, List.getElem?_eq_getElem (by rw [h]; exact (σ _).isLt)] at this
    simpa using this
  have := σ.ofFn_comp_perm fun i : Fin c => L[i.val]
  rwa [← e, ← e'] at this

theorem trainCons_reorder {o : Outside d} (ho : StartFree o) {b : Box ℝ d} (σ : Equiv.Perm (Fin c)) {xs : List (Fin d → ℝ)} {cons : List (Fin c → ℝ)} {ks ks' L : List (Kriging d)} {w w' : o.env.S}
    (hl : ks.length = c) (hl' : ks'.length = c) (he : ∀ i : Fin c, ks'[i.val]? = ks[(σ i).val]?) (hk : ∀ k ∈ ks, UsualGP b k.obj) (h : trainCons o xs cons 0 ks w = .ok (L, w')) :
    ∃ L', trainCons o xs (cons.map (reorder σ)) 0 ks' w = .ok (L', w') ∧ L.length = c ∧ L'.length = c ∧ ∀ i : Fin c, L'[i.val]? = L[(σ i).val]? := by
  obtain ⟨e1, e2, e3⟩ := (trainCons_iff ho xs cons ks 0 w L w' hk).mp h
  have hL : L.length = c := e2.trans hl
  refine ⟨List.ofFn fun i : Fin c => L[(σ i).val], ?_, hL, by simp, fun i => by simp [hL]⟩
  refine (trainCons_iff ho (b := b) xs _ ks' 0 w _ w' ?_).mpr ⟨by rw [e1, hl, hl'], by simp [hl'], ?_⟩
  · intro k hk'
    exact hk k ((reordered_perm σ hl hl' he).mem_iff.mp hk')
  · intro j k k' hj hj'
    have hjc : j < c := by
      have := (List.getElem?_eq_some_iff.mp hj).1
      omega
    rw [List.getElem?_ofFn, dif_pos hjc] at hj'
    have h1 := he ⟨j, hjc⟩
    rw [hj] at h1
    obtain ⟨_, ht⟩ := e3 (σ ⟨j, hjc⟩).val k k' h1.symm (by rw [← hj']; exact List.getElem?_eq_getElem _)
    refine ⟨by omega, ?_⟩
    have : ((cons.map (reorder σ)).map fun g => g ⟨0 + j, by omega⟩) = cons.map fun g => g ⟨0 + (σ ⟨j, hjc⟩).val, by simp⟩ := by
      rw [List.map_map]
      refine List.map_congr_left fun g _ => ?_
      simp [reorder]
    rw [this]
    exact ht

/-! ## Whole sessions -/

section run

variable {o : Outside d} (ho : StartFree o) {b : Box ℝ d} {f : List (Fin d → ℝ) → Py (List ℝ)} {g g' : List (Fin d → ℝ) → Py (List (Fin c → ℝ))} (σ : Equiv.Perm (Fin c)) (hg : SameConstraints σ g g')
  {optimum : Option ℝ} {opt : Option (PopOpt o.env.S d)} {numInit seed : ℕ}

include ho in
theorem train_reorder {k k' r : Kriging d × List (Kriging d)} {xs : List (Fin d → ℝ)} {ys : List ℝ} {gs : List (Fin c → ℝ)} {w w' : o.env.S} (h1 : k'.1 = k.1) (hl : k.2.length = c)
    (hl' : k'.2.length = c) (he : ∀ i : Fin c, k'.2[i.val]? = k.2[(σ i).val]?) (hk : ∀ a ∈ k.2, UsualGP b a.obj)
    (h : (consBO o b f g c optimum opt numInit seed).train k xs ys gs w = .ok (r, w')) :
    ∃ r', (consBO o b f g' c optimum opt numInit seed).train k' xs ys (gs.map (reorder σ)) w = .ok (r', w') ∧ r'.1 = r.1 ∧ r.2.length = c ∧ r'.2.length = c ∧
      ∀ i : Fin c, r'.2[i.val]? = r.2[(σ i).val]? := by
  obtain ⟨⟨k1, w1⟩, h2, h⟩ := Py.bind_ok.mp h
  obtain ⟨⟨ks, w2⟩, h3, h⟩ := Py.bind_ok.mp h
  cases h
  obtain ⟨L', h4, h5, h6, h7⟩ := trainCons_reorder ho σ hl hl' he hk h3
  exact ⟨(k1, L'), Py.bind_ok.mpr ⟨(k1, w1), by rw [h1]; exact h2, Py.bind_ok.mpr ⟨_, h4, rfl⟩⟩, rfl, h5, h6, h7⟩

include ho hg in
theorem new_reorder {w : o.env.S} {s : ConsState ℝ (Fin d → ℝ) (Kriging d × List (Kriging d)) o.env.S c} (h : (consBO o b f g c optimum opt numInit seed).new w = .ok s) :
    ∃ s', (consBO o b f g' c optimum opt numInit seed).new w = .ok s' ∧ SameRunReordered σ s s' := by
  unfold ConsProblem.new at h
  obtain ⟨⟨xs, w1⟩, h1, h⟩ := Py.bind_ok.mp h
  obtain ⟨ys, h2, h⟩ := Py.bind_ok.mp h
  obtain ⟨gs, h3, h⟩ := Py.bind_ok.mp h
  obtain ⟨⟨su, w2⟩, h4, h⟩ := Py.bind_ok.mp h
  obtain ⟨su', e1, e2, e3, e4, e5⟩ := train_reorder (g' := g') ho σ (k' := (freshKriging b, List.replicate c (freshKriging b))) rfl List.length_replicate List.length_replicate
    (fun i => by simp) (fun a ha => by rw [List.eq_of_mem_replicate ha]; exact usual_fresh b) h4
  have h3' : g' xs = .ok (gs.map (reorder σ)) := by rw [hg xs, show g xs = .ok gs from h3]; rfl
  cases h
  refine ⟨_, Py.bind_ok.mpr ⟨_, h1, Py.bind_ok.mpr ⟨_, h2, Py.bind_ok.mpr ⟨_, h3', Py.bind_ok.mpr ⟨_, e1, rfl⟩⟩⟩⟩, ?_⟩
  have hp := consPara_reorder σ c xs ys gs
  exact { sample := rfl, objResponse := rfl, consResponse := rfl, objSurrogate := e2, number := ⟨e3, e4⟩, consSurrogate := e5, best := congrArg Prod.fst hp, bestX := congrArg Prod.snd hp
          historyBest := congrArg (fun r => [r.1]) hp, historyBestX := congrArg (fun r => [r.2]) hp, calls := rfl, rng := rfl }

theorem mapM_view_perm {ks ks' : List (Kriging d)} (hp : ks'.Perm ks) : ∀ {vs}, ks.mapM Kriging.view = .ok vs → ∃ vs', ks'.mapM Kriging.view = .ok vs' ∧ vs'.Perm vs := by
  induction hp with
  | nil => intro vs h; exact ⟨vs, h, .refl _⟩
  | cons k _ ih =>
    intro vs h
    rw [List.mapM_cons] at h
    obtain ⟨v, h1, h⟩ := Py.bind_ok.mp h
    obtain ⟨vs', h2, h⟩ := Py.bind_ok.mp h
    cases h
    obtain ⟨us, h3, h4⟩ := ih h2
    refine ⟨v :: us, ?_, h4.cons v⟩
    rw [List.mapM_cons]
    exact Py.bind_ok.mpr ⟨_, h1, Py.bind_ok.mpr ⟨_, h3, rfl⟩⟩
  | swap k k' l =>
    intro vs h
    rw [List.mapM_cons] at h
    obtain ⟨v, h1, h⟩ := Py.bind_ok.mp h
    obtain ⟨vs', h2, h⟩ := Py.bind_ok.mp h
    cases h
    rw [List.mapM_cons] at h2
    obtain ⟨v', h3, h⟩ := Py.bind_ok.mp h2
    obtain ⟨vs, h4, h⟩ := Py.bind_ok.mp h
    cases h
    refine ⟨v' :: v :: vs, ?_, .swap _ _ _⟩
    rw [List.mapM_cons, List.mapM_cons]
    exact Py.bind_ok.mpr ⟨_, h3, Py.bind_ok.mpr ⟨_, Py.bind_ok.mpr ⟨_, h1, Py.bind_ok.mpr ⟨_, h4, rfl⟩⟩, rfl⟩⟩
  | trans _ _ ih1 ih2 =>
    intro vs h
    obtain ⟨us, h1, h2⟩ := ih2 h
    obtain ⟨ts, h3, h4⟩ := ih1 h1
    exact ⟨ts, h3, h4.trans h2⟩

include ho hg in
theorem iterate_reorder {s s' s1 : ConsState ℝ (Fin d → ℝ) (Kriging d × List (Kriging d)) o.env.S c} (hs : FittedCons b s.sample s.consResponse 0 s.surrogate.2) (hr : SameRunReordered σ s s')
    (h : (consBO o b f g c optimum opt numInit seed).iterate s = .ok s1) :
    ∃ s1', (consBO o b f g' c optimum opt numInit seed).iterate s' = .ok s1' ∧ SameRunReordered σ s1 s1' := by
  unfold ConsProblem.iterate at h
  obtain ⟨⟨x, w1⟩, h1, h⟩ := Py.bind_ok.mp h
  obtain ⟨y, h2, h⟩ := Py.bind_ok.mp h
  obtain ⟨gs, h3, h⟩ := Py.bind_ok.mp h
  obtain ⟨⟨su, w2⟩, h4, h⟩ := Py.bind_ok.mp h
  have hq : (consBO o b f g' c optimum opt numInit seed).query s'.surrogate s'.rng = .ok (x, w1) := by
    obtain ⟨v, q1, q⟩ := Py.bind_ok.mp h1
    obtain ⟨vs, q2, q⟩ := Py.bind_ok.mp q
    obtain ⟨us, q3, q4⟩ := mapM_view _ _ hs
    rw [q2] at q3
    cases q3
    obtain ⟨ts, q5, q6⟩ := mapM_view_perm (reordered_perm σ hr.number.1 hr.number.2 hr.consSurrogate) q2
    refine Py.bind_ok.mpr ⟨v, by rw [hr.objSurrogate]; exact q1, Py.bind_ok.mpr ⟨ts, q5, ?_⟩⟩
    rw [consQuery_perm opt o.de v q6 q4, hr.rng]
    exact q
  obtain ⟨su', e1, e2, e3, e4, e5⟩ := train_reorder (g' := g') ho σ hr.objSurrogate hr.number.1 hr.number.2 hr.consSurrogate hs.usual h4
  have h3' : g' [x] = .ok (gs.map (reorder σ)) := by rw [hg [x], show g [x] = .ok gs from h3]; rfl
  have hcr : s'.consResponse ++ gs.map (reorder σ) = (s.consResponse ++ gs).map (reorder σ) := by rw [hr.consResponse, List.map_append]
  have hp : consPara c (s'.sample ++ [x]) (s'.objResponse ++ y) (s'.consResponse ++ gs.map (reorder σ)) = consPara c (s.sample ++ [x]) (s.objResponse ++ y) (s.consResponse ++ gs) := by
    rw [hcr, hr.sample, hr.objResponse, consPara_reorder]
  rw [← hr.sample, ← hr.objResponse, ← hcr] at e1
  cases h
  refine ⟨_, Py.bind_ok.mpr ⟨_, hq, Py.bind_ok.mpr ⟨_, h2, Py.bind_ok.mpr ⟨_, h3', Py.bind_ok.mpr ⟨_, e1, rfl⟩⟩⟩⟩, ?_⟩
  exact { sample := by simp only [hr.sample], objResponse := by simp only [hr.objResponse], consResponse := hcr, objSurrogate := e2, number := ⟨e3, e4⟩, consSurrogate := e5
          best := congrArg Prod.fst hp, bestX := congrArg Prod.snd hp
          historyBest := by rw [hr.historyBest]; exact congrArg (fun r => s.historyBest ++ [r.1]) hp
          historyBestX := by rw [hr.historyBestX]; exact congrArg (fun r => s.historyBestX ++ [r.2]) hp, calls := by simp only [hr.calls], rng := rfl }

include ho hg in
theorem loop_reorder (stop : ℝ) : ∀ (n : ℕ) {s s' s1 : ConsState ℝ (Fin d → ℝ) (Kriging d × List (Kriging d)) o.env.S c},
    ConsReachable (consBO o b f g c optimum opt numInit seed) s → SameRunReordered σ s s' →
    (consBO o b f g c optimum opt numInit seed).loop stop n s = .ok s1 → ∃ s1', (consBO o b f g' c optimum opt numInit seed).loop stop n s' = .ok s1' ∧ SameRunReordered σ s1 s1' := by
  intro n
  induction n with
  | zero =>
    intro s s' s1 _ hr h
    cases h
    exact ⟨s', rfl, hr⟩
  | succ n ih =>
    intro s s' s1 hre hr h
    rw [ConsProblem.loop] at h ⊢
    rw [hr.best]
    change (if consError s.best optimum ≥ (stop : WithTop ℝ) then _ else _) = _ at h
    change ∃ s1', (if consError s.best optimum ≥ (stop : WithTop ℝ) then _ else _) = _ ∧ _
    split_ifs at h ⊢ with hc
    · obtain ⟨s2, h1, h⟩ := Py.bind_ok.mp h
      obtain ⟨s2', h2, hr2⟩ := iterate_reorder ho σ hg (cons_fitted hre).2.2.1 hr h1
      have hre2 : ConsReachable (consBO o b f g c optimum opt numInit seed) s2 := by
        refine .run 1 stop hre (Py.bind_ok.mpr ⟨s2, ?_, rfl⟩)
        rw [ConsProblem.loop]
        change (if consError s.best optimum ≥ (stop : WithTop ℝ) then _ else _) = _
        rw [if_pos hc]
        exact Py.bind_ok.mpr ⟨_, h1, rfl⟩
      obtain ⟨s3, h3, hr3⟩ := ih hre2 hr2 h
      exact ⟨s3, Py.bind_ok.mpr ⟨_, h2, h3⟩, hr3⟩
    · cases h
      exact ⟨s', rfl, hr⟩

include ho hg in
theorem session_reorder {w : o.env.S} {runs : List (ℕ × ℝ)} {s : ConsState ℝ (Fin d → ℝ) (Kriging d × List (Kriging d)) o.env.S c}
    (h : consSession (consBO o b f g c optimum opt numInit seed) w runs = .ok s) :
    ∃ s', consSession (consBO o b f g' c optimum opt numInit seed) w runs = .ok s' ∧ SameRunReordered σ s s' := by
  unfold consSession at h ⊢
  obtain ⟨s0, h0, h⟩ := Py.bind_ok.mp h
  obtain ⟨s0', h0', hr0⟩ := new_reorder ho σ hg h0
  have key : ∀ (runs : List (ℕ × ℝ)) (t t' : ConsState ℝ (Fin d → ℝ) (Kriging d × List (Kriging d)) o.env.S c), ConsReachable (consBO o b f g c optimum opt numInit seed) t → SameRunReordered σ t t' →
      runs.foldlM (fun s r => do let (s', _) ← (consBO o b f g c optimum opt numInit seed).run r.1 r.2 s; .ok s') t = .ok s →
      ∃ s', runs.foldlM (fun s r => do let (s', _) ← (consBO o b f g' c optimum opt numInit seed).run r.1 r.2 s; .ok s') t' = .ok s' ∧ SameRunReordered σ s s' := by
    intro runs
    induction runs with
    | nil =>
      intro t t' _ hr h
      cases h
      exact ⟨t', rfl, hr⟩
    | cons r runs ih =>
      intro t t' hre hr h
      rw [List.foldlM_cons] at h
      obtain ⟨t1, h1, h⟩ := Py.bind_ok.mp h
      obtain ⟨⟨t2, bx⟩, h1, e⟩ := Py.bind_ok.mp h1
      cases e
      obtain ⟨t2, h2, e⟩ := Py.bind_ok.mp h1
      cases e
      obtain ⟨t3, h3, hr3⟩ := loop_reorder ho σ hg r.2 r.1 hre hr h2
      obtain ⟨s', h4, hr4⟩ := ih _ t3 (.run _ _ hre h1) hr3 h
      refine ⟨s', ?_, hr4⟩
      rw [List.foldlM_cons]
      exact Py.bind_ok.mpr ⟨t3, Py.bind_ok.mpr ⟨_, Py.bind_ok.mpr ⟨_, h3, rfl⟩, rfl⟩, h4⟩
  obtain ⟨s', h1, h2⟩ := key runs s0 s0' (.new w h0) hr0 h
  exact ⟨s', Py.bind_ok.mpr ⟨_, h0', h1⟩, h2⟩

end run

theorem sameConstraints_symm {σ : Equiv.Perm (Fin c)} {g g' : List (Fin d → ℝ) → Py (List (Fin c → ℝ))} (h : SameConstraints σ g g') : SameConstraints σ⁻¹ g' g := by
  intro xs
  rw [h xs]
  cases g xs with
  | error e => rfl
  | ok rows =>
    refine congrArg Except.ok ?_
    dsimp only
    rw [List.map_map]
    symm
    convert List.map_id rows using 2
    funext row i
    simp [reorder]

/-- C171. Two problems that differ only in the order of their constraints, the same settings and the same state of the random generator, a training whose result does not depend on where its restarts begin: a session of
constrained Bayesian optimisation (construction and any calls of `run_optimizer`) finishes for one exactly if it finishes for the other, and then with the same samples, objective values, best value and point and
histories, with the constraint values and surrogates in the other order. -/
theorem C171_order_free (o : Outside d) (ho : StartFree o) (b : Box ℝ d) (f : List (Fin d → ℝ) → Py (List ℝ)) (g g' : List (Fin d → ℝ) → Py (List (Fin c → ℝ))) (σ : Equiv.Perm (Fin c))
    (hg : SameConstraints σ g g') (optimum : Option ℝ) (opt : Option (PopOpt o.env.S d)) (numInit seed : ℕ) (w : o.env.S) (runs : List (ℕ × ℝ)) :
    ((∃ s, consSession (consBO o b f g c optimum opt numInit seed) w runs = .ok s) ↔ ∃ s', consSession (consBO o b f g' c optimum opt numInit seed) w runs = .ok s') ∧
    ∀ s s', consSession (consBO o b f g c optimum opt numInit seed) w runs = .ok s → consSession (consBO o b f g' c optimum opt numInit seed) w runs = .ok s' → SameRunReordered σ s s' := by
  refine ⟨⟨?_, ?_⟩, ?_⟩
  · rintro ⟨s, h⟩
    obtain ⟨s', h', _⟩ := session_reorder ho σ hg h
    exact ⟨s', h'⟩
  · rintro ⟨s, h⟩
    obtain ⟨s', h', _⟩ := session_reorder ho σ⁻¹ (sameConstraints_symm hg) h
    exact ⟨s', h'⟩
  · intro s s' h h'
    obtain ⟨s2, h2, hr⟩ := session_reorder ho σ hg h
    rw [h'] at h2
    cases h2
    exact hr

/-- C171 (the report). Which sample is reported as the best feasible one does not depend on the order of the constraints, whatever the samples, objective values and constraint values are. -/
theorem C171_report {X : Type} (σ : Equiv.Perm (Fin c)) (sample : List X) (obj : List ℝ) (cons : List (Fin c → ℝ)) :
    consPara c sample obj (cons.map (reorder σ)) = consPara c sample obj cons := consPara_reorder σ c sample obj cons

theorem exOutside_startFree (d : ℕ) : StartFree (exOutside d) := by
  intro k xs ys w w'
  unfold Kriging.train
  split_ifs with h
  · simp only [Outside.world, exOutside]
    cases k.obj.train { mini := cornerMinimizer, starts := List.replicate 11 fun _ => k.obj.kernel.boundLow, startsNoise := [] } (rows xs) (column ys h) <;> rfl
  · rfl

/-- Two constraints on the unit interval, in both orders. -/
example : ∃ s s', consSession (consBO (exOutside 1) exInterval (fun xs => .ok (xs.map fun x => x 0)) (fun xs => .ok (xs.map fun x => ![x 0 - 1 / 4, 3 / 4 - x 0])) 2 none none 2 1996) (0 : ℕ) [(3, 0)] = .ok s ∧
    consSession (consBO (exOutside 1) exInterval (fun xs => .ok (xs.map fun x => x 0)) (fun xs => .ok (xs.map fun x => ![3 / 4 - x 0, x 0 - 1 / 4])) 2 none none 2 1996) (0 : ℕ) [(3, 0)] = .ok s' ∧
    SameRunReordered (Equiv.swap 0 1) s s' := by
  have m0 : (fun _ => 0 + ((0 : ℝ) + 1) / 2 * (1 - 0) : Fin 1 → ℝ) ∈ (Sampling.lhsSamples (exOutside 1).env exInterval 2 (some 1996) ((exOutside 1).env.seed 1996 (0 : ℕ))).1 := by
    simp only [Sampling.lhsSamples, Sampling.scaleSamples, List.mem_map, exOutside, List.mem_range]
    exact ⟨_, ⟨0, by norm_num, rfl⟩, by funext j; simp [Sampling.scalePt, exInterval]⟩
  have m1 : (fun _ => 0 + ((1 : ℝ) + 1) / 2 * (1 - 0) : Fin 1 → ℝ) ∈ (Sampling.lhsSamples (exOutside 1).env exInterval 2 (some 1996) ((exOutside 1).env.seed 1996 (0 : ℕ))).1 := by
    simp only [Sampling.lhsSamples, Sampling.scaleSamples, List.mem_map, exOutside, List.mem_range]
    exact ⟨_, ⟨1, by norm_num, rfl⟩, by funext j; simp [Sampling.scalePt, exInterval]⟩
  have hC := C89_cons_succeeds (exOutside 1) (exOutside_lawful 1) one_pos exInterval (fun _ => by simp [exInterval]) (f := fun xs => .ok (xs.map fun x => x 0)) (g := fun x => x 0)
    (fun _ => rfl) (fCons := fun xs => .ok (xs.map fun x => ![x 0 - 1 / 4, 3 / 4 - x 0])) (gc := fun x => ![x 0 - 1 / 4, 3 / 4 - x 0]) (fun _ => rfl) none 2 1996
  obtain ⟨s0, hs0⟩ := (hC.1 (0 : ℕ)).mpr ⟨⟨_, m0, _, m1, by norm_num⟩, fun j => ⟨_, m0, _, m1, by fin_cases j <;> norm_num⟩⟩
  obtain ⟨⟨s, bx⟩, hs⟩ := hC.2 s0 (.new _ hs0) 3 0
  have h1 : consSession (consBO (exOutside 1) exInterval (fun xs => .ok (xs.map fun x => x 0)) (fun xs => .ok (xs.map fun x => ![x 0 - 1 / 4, 3 / 4 - x 0])) 2 none none 2 1996) (0 : ℕ) [(3, 0)] = .ok s := by
    refine Py.bind_ok.mpr ⟨s0, hs0, ?_⟩
    rw [List.foldlM_cons]
    exact Py.bind_ok.mpr ⟨s, Py.bind_ok.mpr ⟨_, hs, rfl⟩, rfl⟩
  have hsame : SameConstraints (d := 1) (Equiv.swap (0 : Fin 2) 1) (fun xs => .ok (xs.map fun x => ![x 0 - 1 / 4, 3 / 4 - x 0])) (fun xs => .ok (xs.map fun x => ![3 / 4 - x 0, x 0 - 1 / 4])) := by
    intro xs
    refine congrArg Except.ok ?_
    dsimp only
    rw [List.map_map]
    refine List.map_congr_left fun x _ => ?_
    funext i
    fin_cases i <;> simp [reorder]
  have hT := C171_order_free (exOutside 1) (exOutside_startFree 1) exInterval (fun xs => .ok (xs.map fun x => x 0)) _ _ _ hsame none none 2 1996 (0 : ℕ) [(3, 0)]
  obtain ⟨s', h'⟩ := hT.1.mp ⟨s, h1⟩
  exact ⟨s, s', h1, h', hT.2 s s' h1 h'⟩

end Mfpml.Props
