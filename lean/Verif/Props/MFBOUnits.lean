import Verif.Props.BOUnits
import Verif.Props.MFRuns

/-!
# C132: multi-fidelity Bayesian optimisation in other units

Vocabulary: `Verif/Spec/BOUnits.lean`.
-/

open scoped BigOperators

namespace Mfpml.Props

open Mfpml Mfpml.Acq Mfpml.GP Mfpml.Spec Mfpml.BO
open Mfpml.EA (Box)

variable {d : ℕ}

/-! ### The loop, for every surrogate -/

/-- The state in other units, `U` being the change of units of the surrogate. -/
def MFState.inUnits {X S W : Type} (U : S → S) (a b : ℝ) (s : MFState ℝ X S W) : MFState ℝ X S W :=
  { s with initResponse := (s.initResponse.1.map fun y => a * y + b, s.initResponse.2.map fun y => a * y + b), responseH := s.responseH.map fun y => a * y + b,
           responseL := s.responseL.map fun y => a * y + b, surrogate := U s.surrogate, best := a * s.best + b, historyBest := s.historyBest.map fun y => a * y + b }

theorem sameMFRun_inUnits {X S W : Type} (U : S → S) (a b : ℝ) (s : MFState ℝ X S W) : SameMFRun a b s (MFState.inUnits U a b s) :=
  ⟨rfl, rfl, rfl, rfl, rfl, rfl, rfl, rfl, rfl, rfl, rfl⟩

/-- Two problems that differ by units; `P` is what is needed to know of the surrogate. -/
structure MFUnitsOf {X S W : Type} (P : S → Prop) (U : S → S) (a b : ℝ) (p p' : MFProblem ℝ X S W) : Prop where
  hf : p'.hf = Spec.inUnits a b p.hf
  lf : p'.lf = Spec.inUnits a b p.lf
  call : ∀ xs, p'.call xs = (p.call xs).map fun r => (r.1.map fun y => a * y + b, r.2.map fun y => a * y + b)
  init : p'.init = p.init
  fresh : p'.fresh = p.fresh.map U
  fresh_P : ∀ s, p.fresh = .ok s → P s
  train : ∀ s xs ys w, P s → p'.train (U s) xs (ys.1.map fun y => a * y + b, ys.2.map fun y => a * y + b) w = (p.train s xs ys w).map fun r => (U r.1, r.2)
  train_P : ∀ s xs ys w r, P s → p.train s xs ys w = .ok r → P r.1
  query : ∀ s cr fmin w, P s → p'.query (U s) cr (a * fmin + b) w = p.query s cr fmin w

variable {X S W : Type} {P : S → Prop} {U : S → S} {a b : ℝ} {p p' : MFProblem ℝ X S W}

theorem mf_new_inUnits (ha : 0 < a) (h : MFUnitsOf P U a b p p') (w : W) : p'.new w = (p.new w).map (MFState.inUnits U a b) := by
  unfold MFProblem.new
  rw [h.init]
  cases p.init w with
  | error e => rfl
  | ok r =>
    simp only [bind, Except.bind, h.call]
    cases p.call r.1 with
    | error e => rfl
    | ok y =>
      simp only [Except.map, h.fresh]
      cases hfr : p.fresh with
      | error e => rfl
      | ok su =>
        simp only [h.train su r.1 y r.2 (h.fresh_P su hfr)]
        cases p.train su r.1 y r.2 with
        | error e => rfl
        | ok t =>
          simp only [Except.map, npMin_units ha, npArgmin_units ha]
          cases npMin y.1 with
          | error e => rfl
          | ok m =>
            cases npArgmin y.1 with
            | error e => rfl
            | ok i =>
              simp only
              cases npRow r.1.1 i <;> rfl

theorem mf_new_P (h : MFUnitsOf P U a b p p') {w : W} {s : MFState ℝ X S W} (hs : p.new w = .ok s) : P s.surrogate := by
  obtain ⟨w1, su, i, h1, h2, h3, h4, _⟩ := mf_new_steps hs
  exact h.train_P _ _ _ _ _ (h.fresh_P _ h3) h4

theorem mfUpdatePara_inUnits (ha : 0 < a) (s : MFState ℝ X S W) (x : X) (y : List ℝ) (fid : ℤ) :
    mfUpdatePara (MFState.inUnits U a b s) x (y.map fun y => a * y + b) fid = (mfUpdatePara s x y fid).map (MFState.inUnits U a b) := by
  unfold mfUpdatePara
  by_cases hf : fid = 0
  · simp only [if_pos hf]
    have hrow : npRow (y.map fun y => a * y + b) 0 = (npRow y 0).map fun y => a * y + b := by
      cases y <;> rfl
    rw [hrow]
    cases npRow y 0 with
    | error e => rfl
    | ok y0 =>
      simp only [Except.map, bind, Except.bind]
      have : a * y0 + b < (MFState.inUnits U a b s).best ↔ y0 < s.best := by
        show a * y0 + b < a * s.best + b ↔ _
        rw [add_lt_add_iff_right, mul_lt_mul_iff_right₀ ha]
      simp only [this]
      split_ifs <;> simp [MFState.inUnits]
  · simp only [if_neg hf, bind, Except.bind, Except.map]
    simp [MFState.inUnits]

theorem mf_iterate_inUnits (ha : 0 < a) (h : MFUnitsOf P U a b p p') (cr : ℝ) (s : MFState ℝ X S W) (hs : P s.surrogate) :
    p'.iterate cr (MFState.inUnits U a b s) = (p.iterate cr s).map (MFState.inUnits U a b) := by
  unfold MFProblem.iterate
  rw [show (MFState.inUnits U a b s).surrogate = U s.surrogate from rfl, show (MFState.inUnits U a b s).rng = s.rng from rfl, show (MFState.inUnits U a b s).best = a * s.best + b from rfl,
    h.query _ _ _ _ hs]
  cases p.query s.surrogate cr s.best s.rng with
  | error e => rfl
  | ok r =>
    obtain ⟨⟨x, fid⟩, rng⟩ := r
    simp only [bind, Except.bind]
    by_cases hfid : fid = 0
    · simp only [if_pos hfid, h.hf, Spec.inUnits]
      cases p.hf [x] with
      | error e => rfl
      | ok y =>
        simp only [Except.map]
        have e : (MFState.inUnits U a b s).responseH ++ y.map (fun y => a * y + b) = (s.responseH ++ y).map fun y => a * y + b := by
          rw [List.map_append]; rfl
        have ht := h.train s.surrogate (s.sampleH ++ [x], s.sampleL) (s.responseH ++ y, s.responseL) rng hs
        simp only [e]
        rw [show p'.train (U s.surrogate) ((MFState.inUnits U a b s).sampleH ++ [x], (MFState.inUnits U a b s).sampleL)
          ((s.responseH ++ y).map (fun y => a * y + b), (MFState.inUnits U a b s).responseL) rng = _ from ht]
        cases p.train s.surrogate (s.sampleH ++ [x], s.sampleL) (s.responseH ++ y, s.responseL) rng with
        | error e => rfl
        | ok t =>
          simp only [Except.map]
          exact mfUpdatePara_inUnits (U := U) (b := b) ha { s with sampleH := s.sampleH ++ [x], responseH := s.responseH ++ y, calls := s.calls ++ [(true, [x])], surrogate := t.1, rng := t.2 } x y fid
    · simp only [if_neg hfid, h.lf, Spec.inUnits]
      cases p.lf [x] with
      | error e => rfl
      | ok y =>
        simp only [Except.map]
        have e : (MFState.inUnits U a b s).responseL ++ y.map (fun y => a * y + b) = (s.responseL ++ y).map fun y => a * y + b := by
          rw [List.map_append]; rfl
        have ht := h.train s.surrogate (s.sampleH, s.sampleL ++ [x]) (s.responseH, s.responseL ++ y) rng hs
        simp only [e]
        rw [show p'.train (U s.surrogate) ((MFState.inUnits U a b s).sampleH, (MFState.inUnits U a b s).sampleL ++ [x])
          ((MFState.inUnits U a b s).responseH, (s.responseL ++ y).map (fun y => a * y + b)) rng = _ from ht]
        cases p.train s.surrogate (s.sampleH, s.sampleL ++ [x]) (s.responseH, s.responseL ++ y) rng with
        | error e => rfl
        | ok t =>
          simp only [Except.map]
          exact mfUpdatePara_inUnits (U := U) (b := b) ha { s with sampleL := s.sampleL ++ [x], responseL := s.responseL ++ y, calls := s.calls ++ [(false, [x])], surrogate := t.1, rng := t.2 } x y fid

theorem mf_iterate_P (h : MFUnitsOf P U a b p p') {cr : ℝ} {s s' : MFState ℝ X S W} (hs : P s.surrogate) (h1 : p.iterate cr s = .ok s') : P s'.surrogate := by
  obtain ⟨x, fid, w1, y, _, h2, _⟩ := mf_iterate_steps h1
  exact h.train_P _ _ _ _ _ hs h2

theorem mf_loop_inUnits (ha : 0 < a) (h : MFUnitsOf P U a b p p') (hstop : ∀ y, updateError (a * y + b) p'.optimum = updateError y p.optimum) (cr stop : ℝ) :
    ∀ (k : ℕ) (s : MFState ℝ X S W), P s.surrogate → p'.loop cr stop k (MFState.inUnits U a b s) = (p.loop cr stop k s).map (MFState.inUnits U a b) ∧
      ∀ s', p.loop cr stop k s = .ok s' → P s'.surrogate
  | 0, s, hs => ⟨rfl, fun s' h' => by cases h'; exact hs⟩
  | k + 1, s, hs => by
    unfold MFProblem.loop
    rw [show (MFState.inUnits U a b s).best = a * s.best + b from rfl, hstop]
    split_ifs
    · rw [mf_iterate_inUnits ha h cr s hs]
      cases h1 : p.iterate cr s with
      | error e => exact ⟨rfl, fun s' h' => by cases h'⟩
      | ok s1 => exact mf_loop_inUnits ha h hstop cr stop k s1 (mf_iterate_P h hs h1)
    · exact ⟨rfl, fun s' h' => by cases h'; exact hs⟩

theorem mf_session_inUnits (ha : 0 < a) (h : MFUnitsOf P U a b p p') (hstop : ∀ y, updateError (a * y + b) p'.optimum = updateError y p.optimum) (w : W) (runs : List (ℕ × ℝ × ℝ)) :
    mfSession p' w runs = (mfSession p w runs).map (MFState.inUnits U a b) := by
  unfold mfSession
  rw [mf_new_inUnits ha h]
  cases hn : p.new w with
  | error e => rfl
  | ok s =>
    have hs := mf_new_P h hn
    clear hn
    simp only [Except.map, bind, Except.bind]
    induction runs generalizing s with
    | nil => rfl
    | cons r l ih =>
      obtain ⟨h1, h2⟩ := mf_loop_inUnits ha h hstop r.2.1 r.2.2 r.1 s hs
      simp only [List.foldlM_cons, bind, Except.bind, MFProblem.run, h1]
      cases h3 : p.loop r.2.1 r.2.2 r.1 s with
      | error e => rfl
      | ok s1 => exact ih s1 (h2 s1 h3)

/-! ### The library's surrogates -/

/-- What the theorems below need of a surrogate: no search for rho, rho 1; no noise for co-Kriging. -/
def MFPlain : MFModel d → Prop
  | .hk _ _ => True
  | .sk g _ => g.rhoOptimize = false ∧ g.rho = 1
  | .ck g _ => g.noise = some 0

/-- The surrogate in other units. -/
noncomputable def MFModel.inUnits (a b : ℝ) : MFModel d → MFModel d
  | .hk g f => .hk (g.units a) (f.map fun t => ⟨t.1, t.2.1, t.2.2.units a b⟩)
  | .sk g f => .sk (g.units a) (f.map fun t => ⟨t.1, t.2.1, t.2.2.units a b 1⟩)
  | .ck g f => .ck g (f.map fun t => ⟨t.1, t.2.1, t.2.2.1.units a b, t.2.2.2.1, t.2.2.2.2⟩)

theorem column_units (a b : ℝ) {n : ℕ} (ys : List ℝ) (h : ys.length = n) (h' : (ys.map fun y => a * y + b).length = n) :
    column (ys.map fun y => a * y + b) h' = fun i => a * column ys h i + b := by
  funext i
  simp [column]

theorem ck_train_noise {q nh nl : ℕ} {ck ck' : CKObj d q} {w : CKWorld d} {Xh : Samples nh d} {yh : Fin nh → ℝ} {Xl : Samples nl d} {yl : Fin nl → ℝ} {t : CKFit nh nl d q}
    (h0 : ck.noise = some 0) (h : ck.train w Xh yh Xl yl = .ok (ck', t)) : ck'.noise = some 0 := by
  unfold CKObj.train at h
  obtain ⟨Xhs, _, h⟩ := Py.bind_ok.mp h
  obtain ⟨Xls, _, h⟩ := Py.bind_ok.mp h
  obtain ⟨yhs, _, h⟩ := Py.bind_ok.mp h
  simp only [h0, Option.map_some, zero_div] at h
  obtain ⟨⟨lf, lfFit⟩, _, h⟩ := Py.bind_ok.mp h
  obtain ⟨⟨rho, theta, noise'⟩, h1, h⟩ := Py.bind_ok.mp h
  obtain ⟨x, _, h1⟩ := Py.bind_ok.mp h1
  cases h1
  obtain ⟨g, _, h⟩ := Py.bind_ok.mp h
  obtain ⟨LC, _, h⟩ := Py.bind_ok.mp h
  obtain ⟨u, _, h⟩ := Py.bind_ok.mp h
  obtain ⟨v, _, h⟩ := Py.bind_ok.mp h
  obtain ⟨mu, _, h⟩ := Py.bind_ok.mp h
  cases h
  rfl

theorem mfModel_train_inUnits (ha : a ≠ 0) (b : ℝ) (o : Outside d) (m : MFModel d) (hm : MFPlain m) (xs : List (Fin d → ℝ) × List (Fin d → ℝ)) (ys : List ℝ × List ℝ) (w : o.env.S) :
    (MFModel.inUnits a b m).train o xs (ys.1.map fun y => a * y + b, ys.2.map fun y => a * y + b) w = (m.train o xs ys w).map (fun r => (MFModel.inUnits a b r.1, r.2)) ∧
    ∀ r, m.train o xs ys w = .ok r → MFPlain r.1 := by
  unfold MFModel.train
  by_cases h : ys.1.length = xs.1.length ∧ ys.2.length = xs.2.length
  · have h' : ((ys.1.map fun y => a * y + b, ys.2.map fun y => a * y + b) : List ℝ × List ℝ).1.length = xs.1.length ∧
        ((ys.1.map fun y => a * y + b, ys.2.map fun y => a * y + b) : List ℝ × List ℝ).2.length = xs.2.length := by
      simpa only [List.length_map] using h
    rw [dif_pos h, dif_pos h']
    have c1 := column_units a b ys.1 h.1 h'.1
    have c2 := column_units a b ys.2 h.2 h'.2
    cases m with
    | hk g f =>
      constructor
      · show (do
            let (g', t) ← (g.units a).train { lf := (o.world g.lf.kernel w).1, hf := (o.world g.kernel (o.world g.lf.kernel w).2).1 } (rows xs.1)
              (column (ys.1.map fun y => a * y + b) h'.1) (rows xs.2) (column (ys.2.map fun y => a * y + b) h'.2)
            .ok (.hk g' (some ⟨_, _, t⟩), (o.world g.kernel (o.world g.lf.kernel w).2).2) : Py (MFModel d × o.env.S)) = _
        rw [c1, c2, hk_train_units ha b]
        dsimp only
        cases g.train { lf := (o.world g.lf.kernel w).1, hf := (o.world g.kernel (o.world g.lf.kernel w).2).1 } (rows xs.1) (column ys.1 h.1) (rows xs.2) (column ys.2 h.2) with
        | error e => rfl
        | ok r => rfl
      · intro r hr
        obtain ⟨r1, _, h2⟩ := Py.bind_ok.mp hr
        cases h2
        trivial
    | sk g f =>
      obtain ⟨hm1, hm2⟩ := hm
      constructor
      · show (do
            let (g', t) ← (g.units a).train { lf := (o.world g.lf.kernel w).1, disc := (o.world g.disc.kernel (o.world g.lf.kernel w).2).1, mini := o.mini, x0 := 0, bumpEvals := [], bumpX := 0 }
              (rows xs.1) (column (ys.1.map fun y => a * y + b) h'.1) (rows xs.2) (column (ys.2.map fun y => a * y + b) h'.2)
            .ok (.sk g' (some ⟨_, _, t⟩), (o.world g.disc.kernel (o.world g.lf.kernel w).2).2) : Py (MFModel d × o.env.S)) = _
        rw [c1, c2, sk_train_units ha b g hm1, hm2]
        dsimp only
        cases g.train { lf := (o.world g.lf.kernel w).1, disc := (o.world g.disc.kernel (o.world g.lf.kernel w).2).1, mini := o.mini, x0 := 0, bumpEvals := [], bumpX := 0 } (rows xs.1)
          (column ys.1 h.1) (rows xs.2) (column ys.2 h.2) with
        | error e => rfl
        | ok r => rfl
      · intro r hr
        obtain ⟨⟨g', t⟩, h1, h2⟩ := Py.bind_ok.mp hr
        cases h2
        unfold SKObj.train at h1
        obtain ⟨_, _, h1⟩ := Py.bind_ok.mp h1
        obtain ⟨_, _, h1⟩ := Py.bind_ok.mp h1
        obtain ⟨x, h3, h1⟩ := Py.bind_ok.mp h1
        obtain ⟨_, _, h1⟩ := Py.bind_ok.mp h1
        rw [hm1] at h3
        cases h3
        cases h1
        exact ⟨hm1, hm2⟩
    | ck g f =>
      have hu : g.units a = g := by
        unfold CKObj.units
        rw [show g.noise = some 0 from hm, Option.map_some, mul_zero, ← show g.noise = some 0 from hm]
      constructor
      · show (do
            let r := o.uniform 11 (d + 1) (Fin.cons g.rhoLow fun _ => g.kernel.boundLow) (Fin.cons g.rhoHigh fun _ => g.kernel.boundHigh) (o.world g.lf.kernel w).2
            let (g', t) ← g.train { lf := (o.world g.lf.kernel w).1, mini := o.mini, starts := r.1, startsNoise := [] }
              (rows xs.1) (column (ys.1.map fun y => a * y + b) h'.1) (rows xs.2) (column (ys.2.map fun y => a * y + b) h'.2)
            .ok (.ck g' (some ⟨_, _, t, rows xs.1, rows xs.2⟩), r.2) : Py (MFModel d × o.env.S)) = _
        have ht := ck_train_units ha b g (fun s hs => by rw [show g.noise = some 0 from hm] at hs; exact (Option.some.inj hs).symm)
          { lf := (o.world g.lf.kernel w).1, mini := o.mini,
            starts := (o.uniform 11 (d + 1) (Fin.cons g.rhoLow fun _ => g.kernel.boundLow) (Fin.cons g.rhoHigh fun _ => g.kernel.boundHigh) (o.world g.lf.kernel w).2).1, startsNoise := [] }
          (rows xs.1) (column ys.1 h.1) (rows xs.2) (column ys.2 h.2)
        rw [hu] at ht
        rw [c1, c2]
        dsimp only
        rw [ht]
        cases g.train { lf := (o.world g.lf.kernel w).1, mini := o.mini, starts := (o.uniform 11 (d + 1) (Fin.cons g.rhoLow fun _ => g.kernel.boundLow) (Fin.cons g.rhoHigh fun _ => g.kernel.boundHigh) (o.world g.lf.kernel w).2).1, startsNoise := [] }
          (rows xs.1) (column ys.1 h.1) (rows xs.2) (column ys.2 h.2) with
        | error e => rfl
        | ok r => rfl
      · intro r hr
        obtain ⟨⟨g', t⟩, h1, h2⟩ := Py.bind_ok.mp hr
        cases h2
        exact ck_train_noise hm h1
  · rw [dif_neg h, dif_neg (by simpa only [List.length_map] using h)]
    exact ⟨rfl, fun r hr => by cases hr⟩

/-- What an acquisition sees, in other units. -/
noncomputable def MFSurr.inUnits (a b : ℝ) (s : MFSurr d) : MFSurr d :=
  { s with predict := fun m X => (s.predict m X).map fun μ j => a * μ j + b, predictStd := fun m X => (s.predictStd m X).map fun r => (fun j => a * r.1 j + b, fun j => a * r.2 j),
           predictLfStd := fun m X => (s.predictLfStd m X).map fun r => (fun j => a * r.1 j + b, fun j => a * r.2 j) }

theorem unitSign_pos (ha : 0 < a) : unitSign a = 1 := by
  unfold unitSign
  rw [abs_of_pos ha, div_self ha.ne']

theorem mfModel_view_inUnits (ha : 0 < a) (b : ℝ) (m : MFModel d) (hm : MFPlain m) : (MFModel.inUnits a b m).view = m.view.map (MFSurr.inUnits a b) := by
  cases m with
  | hk g f =>
    cases f with
    | none => rfl
    | some t =>
      show (.ok (MFSurr.ofHK (g.units a) (t.2.2.units a b)) : Py (MFSurr d)) = .ok (MFSurr.inUnits a b (MFSurr.ofHK g t.2.2))
      have h1 : (fun (k : ℕ) (X : Samples k d) => (g.units a).predict (t.2.2.units a b) X) = fun _ X => (g.predict t.2.2 X).map fun μ j => a * μ j + b := by
        funext k X; exact hk_predict_units ha.ne' b g t.2.2 X
      have h2 : (fun (k : ℕ) (X : Samples k d) => (g.units a).predictStd (t.2.2.units a b) X) = fun _ X => (g.predictStd t.2.2 X).map fun r => (fun j => a * r.1 j + b, fun j => a * r.2 j) := by
        funext k X; rw [hk_predictStd_units ha.ne' b g t.2.2 X, abs_of_pos ha]
      have h3 : (fun (k : ℕ) (X : Samples k d) => GP.predictStd (g.units a).lf (t.2.2.units a b).lfFit X) =
          fun _ X => (GP.predictStd g.lf t.2.2.lfFit X).map fun r => (fun j => a * r.1 j + b, fun j => a * r.2 j) := by
        funext k X
        have := gp_predictStd_units ha.ne' b g.lf t.2.2.lfFit X
        rw [abs_of_pos ha] at this
        exact this
      have h4 : (t.2.2.units a b).gls.beta 0 = t.2.2.gls.beta 0 := by
        simp [HKFit.units, GLS.units, unitSign_pos ha]
      unfold MFSurr.ofHK MFSurr.inUnits
      rw [h1, h2, h3, h4]
      rfl
  | sk g f =>
    obtain ⟨hm1, hm2⟩ := hm
    cases f with
    | none => rfl
    | some t =>
      show (.ok (MFSurr.ofSK (g.units a) (t.2.2.units a b 1)) : Py (MFSurr d)) = .ok (MFSurr.inUnits a b (MFSurr.ofSK g t.2.2))
      have h1 : (fun (k : ℕ) (X : Samples k d) => (g.units a).predict (t.2.2.units a b 1) X) = fun _ X => (g.predict t.2.2 X).map fun μ j => a * μ j + b := by
        funext k X
        have := sk_predict_units ha.ne' b g t.2.2 X
        rw [hm2] at this
        rw [this]
        simp
      have h2 : (fun (k : ℕ) (X : Samples k d) => (g.units a).predictStd (t.2.2.units a b 1) X) = fun _ X => (g.predictStd t.2.2 X).map fun r => (fun j => a * r.1 j + b, fun j => a * r.2 j) := by
        funext k X
        have := sk_predictStd_units ha.ne' b g t.2.2 X
        rw [hm2, abs_of_pos ha] at this
        exact this
      have h3 : (fun (k : ℕ) (X : Samples k d) => GP.predictStd (g.units a).lf (t.2.2.units a b 1).lfFit X) =
          fun _ X => (GP.predictStd g.lf t.2.2.lfFit X).map fun r => (fun j => a * r.1 j + b, fun j => a * r.2 j) := by
        funext k X
        have := gp_predictStd_units ha.ne' b g.lf t.2.2.lfFit X
        rw [abs_of_pos ha] at this
        exact this
      unfold MFSurr.ofSK MFSurr.inUnits
      rw [h1, h2, h3]
      rfl
  | ck g f =>
    cases f with
    | none => rfl
    | some t =>
      show (.ok (MFSurr.ofCK g (t.2.2.1.units a b) t.2.2.2.1 t.2.2.2.2) : Py (MFSurr d)) = .ok (MFSurr.inUnits a b (MFSurr.ofCK g t.2.2.1 t.2.2.2.1 t.2.2.2.2))
      have h1 : (fun (k : ℕ) (X : Samples k d) => g.predict (t.2.2.1.units a b) X) = fun _ X => (g.predict t.2.2.1 X).map fun μ j => a * μ j + b := by
        funext k X; exact ck_predict_units ha.ne' b g t.2.2.1 X
      have h2 : (fun (k : ℕ) (X : Samples k d) => (do let r ← g.predictStd (t.2.2.1.units a b) X; .ok r.2 : Py ((Fin k → ℝ) × (Fin k → ℝ)))) =
          fun _ X => (do let r ← g.predictStd t.2.2.1 X; .ok r.2 : Py _).map fun r => (fun j => a * r.1 j + b, fun j => a * r.2 j) := by
        funext k X
        rw [ck_predictStd_units ha.ne' b g t.2.2.1 X, abs_of_pos ha]
        cases g.predictStd t.2.2.1 X <;> rfl
      have h3 : (fun (k : ℕ) (X : Samples k d) => g.predictLfStd (t.2.2.1.units a b) X) =
          fun _ X => (g.predictLfStd t.2.2.1 X).map fun r => (fun j => a * r.1 j + b, fun j => a * r.2 j) := by
        funext k X
        have := ck_predictLf_units ha.ne' b g t.2.2.1 X
        rw [abs_of_pos ha] at this
        exact this
      unfold MFSurr.ofCK MFSurr.inUnits
      rw [h1, h2, h3]

/-! ### The acquisitions -/

theorem mfChoose_units {W : Type} {c e : ℝ} (hc : 0 < c) {E E' : ℤ → (Fin d → ℝ) → Py ℝ} (hE : ∀ fid x, E' fid x = (E fid x).map fun v => c * v + e) (opt : Option (PopOpt W d)) {de : DiffEvo W d}
    (hde : UnitFreeValues de) (bound : Py (Box ℝ d)) (w : W) : mfChoose E' opt de bound w = mfChoose E opt de bound w := by
  unfold mfChoose
  cases opt with
  | some run => rfl
  | none =>
    have h : ∀ fid, E' fid = fun x => (E fid x).map fun v => c * v + e := fun fid => funext fun x => hE fid x
    simp only [h]
    cases bound with
    | error e => rfl
    | ok b =>
      simp only [bind, Except.bind, hde _ c e hc]
      cases de (E 0) b w with
      | error e => rfl
      | ok r =>
        simp only [Except.map]
        cases de (E 1) b r.2 with
        | error e => rfl
        | ok r' =>
          simp only
          have : c * r.1.2 + e ≤ c * r'.1.2 + e ↔ r.1.2 ≤ r'.1.2 := by
            rw [add_le_add_iff_right, mul_le_mul_iff_right₀ hc]
          simp only [this]

/-- The acquisition `q'` in the new units proposes what `q` proposes in the old ones. -/
def MFAcqUnits {W : Type} (a b : ℝ) (q q' : MFQuery W d) : Prop := ∀ s cr fmin w, q' (MFSurr.inUnits a b s) cr (a * fmin + b) w = q s cr fmin w

theorem vflcb_units {W : Type} (ha : 0 < a) (b : ℝ) (kappa : ℝ × ℝ) (opt : Option (PopOpt W d)) {de : DiffEvo W d} (hde : UnitFreeValues de) :
    MFAcqUnits a b (vflcbQuery kappa opt de) (vflcbQuery kappa opt de) := by
  intro s cr fmin w
  unfold vflcbQuery
  refine mfChoose_units (c := a) (e := kappa.1 * b) ha (fun fid x => ?_) opt hde _ w
  unfold single vflcbEval
  simp only [MFSurr.inUnits]
  cases s.predictStd 1 (onePoint x) with
  | error e => rfl
  | ok r =>
    simp only [bind, Except.bind, Except.map]
    cases s.predictLfStd 1 (onePoint x) with
    | error e => rfl
    | ok r' =>
      simp only
      split_ifs
      · simp only [Except.ok.injEq]; ring
      · simp only [Except.ok.injEq]; ring
      · rfl

theorem vfeiValue_units (ha : 0 < a) (b t e fmin pre std s : ℝ) :
    vfeiValue t e (a * fmin + b) (a * pre + b) (a * std) (a * s) = a * vfeiValue (t / a) (e / a) fmin pre std s := by
  unfold vfeiValue
  have h0 : a * s < e ↔ s < e / a := by rw [lt_div_iff₀ ha, mul_comm]
  simp only [h0]
  split_ifs
  · rw [mul_zero]
  · have h : (a * fmin + b - (a * pre + b)) / (a * std + t) = (fmin - pre) / (std + t / a) := by
      rw [← mul_div_mul_left (fmin - pre) _ ha.ne']
      congr 1
      · ring
      · field_simp
    rw [h]
    ring

theorem vfei_units {W : Type} (ha : 0 < a) (b t e : ℝ) (opt : Option (PopOpt W d)) {de : DiffEvo W d} (hde : UnitFreeValues de) :
    MFAcqUnits a b (vfeiQueryGuard (t / a) (e / a) opt de) (vfeiQueryGuard t e opt de) := by
  intro s cr fmin w
  unfold vfeiQueryGuard
  refine mfChoose_units (c := a) (e := 0) ha (fun fid x => ?_) opt hde _ w
  unfold single
  by_cases hk : s.isHK = false
  · have hk' : (MFSurr.inUnits a b s).isHK = false := hk
    simp only [if_pos hk, if_pos hk']; rfl
  · have hk' : ¬ (MFSurr.inUnits a b s).isHK = false := hk
    simp only [if_neg hk, if_neg hk']
    simp only [MFSurr.inUnits]
    cases s.predictStd 1 (onePoint x) with
    | error e => rfl
    | ok r =>
      simp only [bind, Except.bind, Except.map]
      by_cases h0 : fid = 0
      · simp only [if_pos h0, vfeiValue_units ha, Except.ok.injEq]; ring
      · simp only [if_neg h0]
        by_cases h1 : fid = 1
        · simp only [if_pos h1]
          cases s.predictLfStd 1 (onePoint x) with
          | error e => rfl
          | ok r' =>
            simp only
            cases s.beta with
            | error e => rfl
            | ok β =>
              simp only [Except.ok.injEq]
              rw [show β * (a * r'.2 0) = a * (β * r'.2 0) by ring, vfeiValue_units ha]
              ring
        · simp only [if_neg h1]

theorem fidelityCorr_units (ha : 0 < a) (b : ℝ) {m : ℕ} (s : MFSurr d) (x : Samples m d) (fid : ℤ) : fidelityCorr (MFSurr.inUnits a b s) x fid = fidelityCorr s x fid := by
  unfold fidelityCorr
  split_ifs with h0 h1
  · rfl
  · simp only [MFSurr.inUnits]
    cases s.predictStd m x with
    | error e => rfl
    | ok r =>
      simp only [bind, Except.bind, Except.map]
      cases s.predictLfStd m x with
      | error e => rfl
      | ok r' =>
        have h : ∀ j, |a * r.1 j + b - (a * r'.1 j + b)| + a * r.2 j = a * (|r.1 j - r'.1 j| + r.2 j) := by
          intro j
          rw [show a * r.1 j + b - (a * r'.1 j + b) = a * (r.1 j - r'.1 j) by ring, abs_mul, abs_of_pos ha]
          ring
        simp only [h]
        have h2 : (∀ j, a * (|r.1 j - r'.1 j| + r.2 j) ≠ 0) ↔ ∀ j, |r.1 j - r'.1 j| + r.2 j ≠ 0 := by
          simp only [ne_eq, mul_eq_zero, ha.ne', false_or]
        simp only [h2, mul_div_mul_left _ _ ha.ne']
  · rfl

theorem effectiveBest_units (ha : 0 < a) (b : ℝ) (s : MFSurr d) : effectiveBest (MFSurr.inUnits a b s) = effectiveBest s := by
  unfold effectiveBest
  simp only [MFSurr.inUnits]
  cases s.predictStd _ (Fin.append s.sampleH s.sampleL) with
  | error e => rfl
  | ok r =>
    simp only [bind, Except.bind, Except.map]
    have : (List.ofFn fun j => a * r.1 j + b + 1 * (a * r.2 j)) = (List.ofFn fun j => r.1 j + 1 * r.2 j).map fun y => a * y + b := by
      rw [List.map_ofFn]
      congr 1
      funext j
      simp only [Function.comp]
      ring
    rw [this, npArgmin_units ha]

theorem aei_units {W : Type} (ha : 0 < a) (b e : ℝ) (opt : Option (PopOpt W d)) {de : DiffEvo W d} (hde : UnitFreeValues de) :
    MFAcqUnits a b (aeiQueryGuard (e / a) opt de) (aeiQueryGuard e opt de) := by
  intro s cr fmin w
  unfold aeiQueryGuard
  refine mfChoose_units (c := a) (e := 0) ha (fun fid x => ?_) opt hde _ w
  unfold single
  rw [effectiveBest_units ha]
  simp only [fidelityCorr_units ha]
  simp only [MFSurr.inUnits]
  cases s.predictStd 1 (onePoint x) with
  | error e => rfl
  | ok r =>
    simp only [bind, Except.bind, Except.map]
    cases effectiveBest s with
    | error e => rfl
    | ok xb =>
      simp only
      cases s.predict 1 (onePoint xb) with
      | error e => rfl
      | ok μ =>
        simp only
        cases fidelityCorr s (onePoint x) fid with
        | error e => rfl
        | ok c =>
          cases c with
          | none => rfl
          | some c =>
            simp only [Except.ok.injEq]
            have h0 : a * r.2 0 < e ↔ r.2 0 < e / a := by rw [lt_div_iff₀ ha, mul_comm]
            have h1 : (a * μ 0 + b - (a * r.1 0 + b)) / (a * r.2 0) = (μ 0 - r.1 0) / r.2 0 := by
              rw [← mul_div_mul_left (μ 0 - r.1 0) _ ha.ne']
              congr 1
              ring
            simp only [h0, h1]
            split_ifs <;> ring

theorem epi_units {W : Type} (ha : 0 < a) (b e : ℝ) (opt : Option (PopOpt W d)) {de : DiffEvo W d} (hde : UnitFreeValues de) :
    MFAcqUnits a b (epiQueryGuard (e / a) opt de) (epiQueryGuard e opt de) := by
  intro s cr fmin w
  unfold epiQueryGuard
  simp only [show (MFSurr.inUnits a b s).bound = s.bound from rfl]
  cases hb : s.bound with
  | error e => rfl
  | ok box =>
    have hsing : single ((MFSurr.inUnits a b s).predict 1) = fun x => (single (s.predict 1) x).map fun v => a * v + b := by
      funext x
      unfold single
      simp only [MFSurr.inUnits]
      cases s.predict 1 (onePoint x) <;> rfl
    simp only [bind, Except.bind, hsing, hde _ a b ha]
    cases de (single (s.predict 1)) box w with
    | error e => rfl
    | ok pm =>
      simp only [Except.map]
      refine mfChoose_units (c := 1) (e := 0) one_pos (fun fid x => ?_) opt hde _ _
      unfold single
      simp only [fidelityCorr_units ha]
      simp only [MFSurr.inUnits]
      cases s.predictStd 1 (onePoint x) with
      | error e => rfl
      | ok r =>
        simp only [bind, Except.bind, Except.map]
        cases fidelityCorr s (onePoint x) fid with
        | error e => rfl
        | ok c =>
          cases c with
          | none => rfl
          | some c =>
            have h0 : a * r.2 0 < e ↔ r.2 0 < e / a := by rw [lt_div_iff₀ ha, mul_comm]
            have h1 : (a * pm.1.2 + b - (a * r.1 0 + b)) / (a * r.2 0) = (pm.1.2 - r.1 0) / r.2 0 := by
              rw [← mul_div_mul_left (pm.1.2 - r.1 0) _ ha.ne']
              congr 1
              ring
            simp only
            by_cases hf : fid = 0
            · simp only [if_pos hf]
              cases s.evalCorr 1 s.numH (onePoint x) s.sampleH 0 with
              | error e => rfl
              | ok R =>
                cases R with
                | none => rfl
                | some R =>
                  simp only [h0, h1, Except.ok.injEq]
                  exact ((add_zero _).trans (one_mul _)).symm
            · simp only [if_neg hf]
              cases s.evalCorr 1 s.numL (onePoint x) s.sampleL 1 with
              | error e => rfl
              | ok R =>
                cases R with
                | none => rfl
                | some R =>
                  simp only [h0, h1, Except.ok.injEq]
                  exact ((add_zero _).trans (one_mul _)).symm

/-- The acquisitions with guards are the library's for the library's constants. -/
theorem mf_guard_library {W : Type} : (aeiQueryGuard (W := W) (d := d) floatEps = aeiQuery) ∧ (vfeiQueryGuard (W := W) (d := d) 1e-8 floatEps = vfeiQuery) ∧
    (epiQueryGuard (W := W) (d := d) floatEps = epiQuery) := by
  refine ⟨?_, rfl, ?_⟩
  · funext opt de s cr fmin w
    unfold aeiQueryGuard aeiQuery
    congr 1
    funext fid x
    unfold single aeiEval aeiFormula
    beta_reduce
    cases s.predictStd 1 (onePoint x) with
    | error e => rfl
    | ok r =>
      cases effectiveBest s with
      | error e => rfl
      | ok xb =>
        simp only [bind, Except.bind]
        cases s.predict 1 (onePoint xb) with
        | error e => rfl
        | ok μ =>
          simp only
          cases fidelityCorr s (onePoint x) fid with
          | error e => rfl
          | ok c => cases c <;> rfl
  · funext opt de s cr fmin w
    unfold epiQueryGuard epiQuery
    cases s.bound with
    | error e => rfl
    | ok box =>
      simp only [bind, Except.bind]
      cases de (single (s.predict 1)) box w with
      | error e => rfl
      | ok pm =>
        simp only
        congr 1
        funext fid x
        unfold single epiEval epiFormula
        beta_reduce
        cases s.predictStd 1 (onePoint x) with
        | error e => rfl
        | ok r =>
          simp only [bind, Except.bind]
          cases fidelityCorr s (onePoint x) fid with
          | error e => rfl
          | ok c =>
            cases c with
            | none => rfl
            | some c =>
              simp only
              by_cases hf : fid = 0
              · simp only [if_pos hf]
                cases s.evalCorr 1 s.numH (onePoint x) s.sampleH 0 with
                | error e => rfl
                | ok R => cases R <;> rfl
              · simp only [if_neg hf]
                cases s.evalCorr 1 s.numL (onePoint x) s.sampleL 1 with
                | error e => rfl
                | ok R => cases R <;> rfl

/-! ### C132 -/

theorem mfBO_unitsOf (ha : 0 < a) (b : ℝ) (o : Outside d) (box : Box ℝ d) (hf lf : List (Fin d → ℝ) → Py (List ℝ)) (optimum optimum' : Option ℝ) {q q' : MFQuery o.env.S d} (hq : MFAcqUnits a b q q')
    (name : String) (seed : ℕ) :
    MFUnitsOf MFPlain (MFModel.inUnits a b) a b (mfBO o box hf lf optimum q name seed) (mfBO o box (Spec.inUnits a b hf) (Spec.inUnits a b lf) optimum' q' name seed) where
  hf := rfl
  lf := rfl
  call := fun xs => by
    show (do let h ← (Spec.inUnits a b hf) xs.1; let l ← (Spec.inUnits a b lf) xs.2; .ok (h, l)) = (do let h ← hf xs.1; let l ← lf xs.2; .ok (h, l) : Py (List ℝ × List ℝ)).map _
    unfold Spec.inUnits
    cases hf xs.1 with
    | error e => rfl
    | ok y =>
      simp only [bind, Except.bind, Except.map]
      cases lf xs.2 <;> rfl
  init := rfl
  fresh := by
    show freshMF box name = (freshMF box name).map (MFModel.inUnits a b)
    unfold freshMF
    split_ifs
    · simp [Except.map, MFModel.inUnits, HKObj.units, GPObj.units, freshGP]
    · simp [Except.map, MFModel.inUnits, SKObj.units, SKObj.new, GPObj.units, freshGP]
    · rfl
    · rfl
  fresh_P := fun s hs => by
    have hs : freshMF box name = .ok s := hs
    unfold freshMF at hs
    split_ifs at hs <;> cases hs
    · trivial
    · exact ⟨rfl, rfl⟩
    · rfl
  train := fun s xs ys w hs => by
    show (do let (m', w') ← (MFModel.inUnits a b s).train o xs (ys.1.map fun y => a * y + b, ys.2.map fun y => a * y + b) w.1; .ok (m', (w', w.2)) : Py _) =
      (do let (m', w') ← s.train o xs ys w.1; .ok (m', (w', w.2)) : Py _).map _
    rw [(mfModel_train_inUnits ha.ne' b o s hs xs ys w.1).1]
    cases s.train o xs ys w.1 <;> rfl
  train_P := fun s xs ys w r hs hr => by
    obtain ⟨r1, h1, h2⟩ := Py.bind_ok.mp hr
    cases h2
    exact (mfModel_train_inUnits one_ne_zero 0 o s hs xs ys w.1).2 r1 h1
  query := fun s cr fmin w hs => by
    show (do let v ← (MFModel.inUnits a b s).view; let (r, w') ← q' v cr (a * fmin + b) w.1; .ok (r, (w', w.2)) : Py _) = (do let v ← s.view; let (r, w') ← q v cr fmin w.1; .ok (r, (w', w.2)) : Py _)
    rw [mfModel_view_inUnits ha b s hs]
    cases s.view with
    | error e => rfl
    | ok v =>
      simp only [Except.map, bind, Except.bind]
      rw [hq v cr fmin w.1]

theorem c132_main (ha : 0 < a) (b : ℝ) (o : Outside d) (box : Box ℝ d) (hf lf : List (Fin d → ℝ) → Py (List ℝ)) (optimum : Option ℝ) (hstop : optimum = none ∨ b = 0 ∧ optimum ≠ some 0)
    {q q' : MFQuery o.env.S d} (hq : MFAcqUnits a b q q') (name : String) (seed : ℕ) (w : o.env.S × List ℕ) (runs : List (ℕ × ℝ × ℝ)) :
    (∀ e, mfSession (mfBO o box (Spec.inUnits a b hf) (Spec.inUnits a b lf) (optimum.map fun o => a * o + b) q' name seed) w runs = .error e ↔
      mfSession (mfBO o box hf lf optimum q name seed) w runs = .error e) ∧
    ∀ s, mfSession (mfBO o box hf lf optimum q name seed) w runs = .ok s →
      ∃ s', mfSession (mfBO o box (Spec.inUnits a b hf) (Spec.inUnits a b lf) (optimum.map fun o => a * o + b) q' name seed) w runs = .ok s' ∧ SameMFRun a b s s' := by
  have h := mf_session_inUnits ha (mfBO_unitsOf ha b o box hf lf optimum (optimum.map fun o => a * o + b) hq name seed) (updateError_units ha hstop) w runs
  rw [h]
  cases mfSession (mfBO o box hf lf optimum q name seed) w runs with
  | error e => exact ⟨fun _ => Iff.rfl, fun s hs => by cases hs⟩
  | ok s =>
    refine ⟨fun e => ⟨fun h => ?_, fun h => ?_⟩, fun s' hs => ?_⟩
    · cases h
    · cases h
    · cases hs
      exact ⟨_, rfl, sameMFRun_inUnits _ a b s⟩

/-- C132 (VFLCB). With the variable-fidelity lower confidence bound the whole history of a multi-fidelity optimiser, with any of the surrogates, does not depend on the units in which the two objectives are given
(the same units for both): it evaluates the same points at the same fidelities in the same order, reports the same best points and the converted best values, and raises exactly when it would. -/
theorem C132_vflcb (ha : 0 < a) (b : ℝ) (o : Outside d) (hde : UnitFreeValues o.de) (box : Box ℝ d) (hf lf : List (Fin d → ℝ) → Py (List ℝ)) (optimum : Option ℝ)
    (hstop : optimum = none ∨ b = 0 ∧ optimum ≠ some 0) (kappa : ℝ × ℝ) (opt : Option (PopOpt o.env.S d)) (name : String) (seed : ℕ) (w : o.env.S × List ℕ) (runs : List (ℕ × ℝ × ℝ)) :
    (∀ e, mfSession (mfBO o box (Spec.inUnits a b hf) (Spec.inUnits a b lf) (optimum.map fun o => a * o + b) (vflcbQuery kappa opt o.de) name seed) w runs = .error e ↔
      mfSession (mfBO o box hf lf optimum (vflcbQuery kappa opt o.de) name seed) w runs = .error e) ∧
    ∀ s, mfSession (mfBO o box hf lf optimum (vflcbQuery kappa opt o.de) name seed) w runs = .ok s →
      ∃ s', mfSession (mfBO o box (Spec.inUnits a b hf) (Spec.inUnits a b lf) (optimum.map fun o => a * o + b) (vflcbQuery kappa opt o.de) name seed) w runs = .ok s' ∧ SameMFRun a b s s' :=
  c132_main ha b o box hf lf optimum hstop (vflcb_units ha b kappa opt hde) name seed w runs

/-- C132 (VFEI). With `VFEI` the same is true up to its two constants, which are in the units of the objective: the history in the new units is the history in the old ones with `1e-8 / a` and `eps / a`. -/
theorem C132_vfei (ha : 0 < a) (b : ℝ) (o : Outside d) (hde : UnitFreeValues o.de) (box : Box ℝ d) (hf lf : List (Fin d → ℝ) → Py (List ℝ)) (optimum : Option ℝ)
    (hstop : optimum = none ∨ b = 0 ∧ optimum ≠ some 0) (opt : Option (PopOpt o.env.S d)) (name : String) (seed : ℕ) (w : o.env.S × List ℕ) (runs : List (ℕ × ℝ × ℝ)) :
    (∀ e, mfSession (mfBO o box (Spec.inUnits a b hf) (Spec.inUnits a b lf) (optimum.map fun o => a * o + b) (vfeiQuery opt o.de) name seed) w runs = .error e ↔
      mfSession (mfBO o box hf lf optimum (vfeiQueryGuard (1e-8 / a) (floatEps / a) opt o.de) name seed) w runs = .error e) ∧
    ∀ s, mfSession (mfBO o box hf lf optimum (vfeiQueryGuard (1e-8 / a) (floatEps / a) opt o.de) name seed) w runs = .ok s →
      ∃ s', mfSession (mfBO o box (Spec.inUnits a b hf) (Spec.inUnits a b lf) (optimum.map fun o => a * o + b) (vfeiQuery opt o.de) name seed) w runs = .ok s' ∧ SameMFRun a b s s' :=
  c132_main ha b o box hf lf optimum hstop (q' := vfeiQuery opt o.de) (vfei_units ha b 1e-8 floatEps opt hde) name seed w runs

/-- C132 (augmented EI). The same for `AugmentedEI`, with `eps / a`. -/
theorem C132_aei (ha : 0 < a) (b : ℝ) (o : Outside d) (hde : UnitFreeValues o.de) (box : Box ℝ d) (hf lf : List (Fin d → ℝ) → Py (List ℝ)) (optimum : Option ℝ)
    (hstop : optimum = none ∨ b = 0 ∧ optimum ≠ some 0) (opt : Option (PopOpt o.env.S d)) (name : String) (seed : ℕ) (w : o.env.S × List ℕ) (runs : List (ℕ × ℝ × ℝ)) :
    (∀ e, mfSession (mfBO o box (Spec.inUnits a b hf) (Spec.inUnits a b lf) (optimum.map fun o => a * o + b) (aeiQuery opt o.de) name seed) w runs = .error e ↔
      mfSession (mfBO o box hf lf optimum (aeiQueryGuard (floatEps / a) opt o.de) name seed) w runs = .error e) ∧
    ∀ s, mfSession (mfBO o box hf lf optimum (aeiQueryGuard (floatEps / a) opt o.de) name seed) w runs = .ok s →
      ∃ s', mfSession (mfBO o box (Spec.inUnits a b hf) (Spec.inUnits a b lf) (optimum.map fun o => a * o + b) (aeiQuery opt o.de) name seed) w runs = .ok s' ∧ SameMFRun a b s s' :=
  c132_main ha b o box hf lf optimum hstop (q' := aeiQuery opt o.de) (by have := aei_units ha b floatEps opt hde; rwa [mf_guard_library.1] at this) name seed w runs

/-- C132 (extended PI). The same for `ExtendedPI`, with `eps / a`. -/
theorem C132_epi (ha : 0 < a) (b : ℝ) (o : Outside d) (hde : UnitFreeValues o.de) (box : Box ℝ d) (hf lf : List (Fin d → ℝ) → Py (List ℝ)) (optimum : Option ℝ)
    (hstop : optimum = none ∨ b = 0 ∧ optimum ≠ some 0) (opt : Option (PopOpt o.env.S d)) (name : String) (seed : ℕ) (w : o.env.S × List ℕ) (runs : List (ℕ × ℝ × ℝ)) :
    (∀ e, mfSession (mfBO o box (Spec.inUnits a b hf) (Spec.inUnits a b lf) (optimum.map fun o => a * o + b) (epiQuery opt o.de) name seed) w runs = .error e ↔
      mfSession (mfBO o box hf lf optimum (epiQueryGuard (floatEps / a) opt o.de) name seed) w runs = .error e) ∧
    ∀ s, mfSession (mfBO o box hf lf optimum (epiQueryGuard (floatEps / a) opt o.de) name seed) w runs = .ok s →
      ∃ s', mfSession (mfBO o box (Spec.inUnits a b hf) (Spec.inUnits a b lf) (optimum.map fun o => a * o + b) (epiQuery opt o.de) name seed) w runs = .ok s' ∧ SameMFRun a b s s' :=
  c132_main ha b o box hf lf optimum hstop (q' := epiQuery opt o.de) (by have := epi_units ha b floatEps opt hde; rwa [mf_guard_library.2.2] at this) name seed w runs

/-! ### The hypotheses are met -/

theorem exOutside_unitFreeValues (d : ℕ) : UnitFreeValues (exOutside d).de := by
  intro f a b _ box w
  simp only [exOutside]
  cases f box.low with
  | error e => rfl
  | ok v =>
    simp only [Except.map, bind, Except.bind]
    split_ifs <;> rfl

/-- A search that always finds a minimiser does not depend on units either. -/
theorem exactSearch_unitFreeValues {W : Type} (b0 : W → W) : UnitFreeValues (exactSearch (d := d) b0) := by
  intro f a b ha box w
  have h := exactSearch_unitFree (d := d) b0 f a b ha box w
  cases h1 : exactSearch (d := d) b0 f box w with
  | error e =>
    rw [h1] at h
    cases h2 : exactSearch (d := d) b0 (fun x => (f x).map fun v => a * v + b) box w with
    | error e' =>
      rw [h2] at h
      simp only [Except.map, Except.error.injEq] at h ⊢
      exact h
    | ok r => rw [h2] at h; cases h
  | ok r =>
    rw [h1] at h
    cases h2 : exactSearch (d := d) b0 (fun x => (f x).map fun v => a * v + b) box w with
    | error e' => rw [h2] at h; cases h
    | ok r' =>
      rw [h2] at h
      simp only [Except.map, Except.ok.injEq, Prod.mk.injEq] at h ⊢
      obtain ⟨⟨x, v⟩, w1⟩ := r
      obtain ⟨⟨x', v'⟩, w1'⟩ := r'
      obtain ⟨hx, hw⟩ := h
      simp only at hx hw
      subst hx hw
      have e1 := ((exactSearch_spec (d := d) b0).1 _ _ _ _ _ _ h1).2
      have e2 := ((exactSearch_spec (d := d) b0).1 _ _ _ _ _ _ h2).2
      simp only [e1, Except.map, Except.ok.injEq] at e2
      rw [e2]

/-- C132 is not vacuous: scaled Kriging with `VFLCB` on `x²` and `x` runs, and so does the optimiser whose objectives are given in other units. -/
example : ∃ s s', mfSession (mfBO (exOutside 1) exInterval (fun xs => .ok (xs.map fun x => x 0 ^ 2)) (fun xs => .ok (xs.map fun x => x 0)) none (vflcbQuery (1, 1) none (exOutside 1).de)
      "ScaledKriging" 1996) ((0 : ℕ), [3, 3]) [(5, 10, 0)] = .ok s ∧
    mfSession (mfBO (exOutside 1) exInterval (Spec.inUnits (9 / 5) 32 fun xs => .ok (xs.map fun x => x 0 ^ 2)) (Spec.inUnits (9 / 5) 32 fun xs => .ok (xs.map fun x => x 0)) none
      (vflcbQuery (1, 1) none (exOutside 1).de) "ScaledKriging" 1996) ((0 : ℕ), [3, 3]) [(5, 10, 0)] = .ok s' ∧ SameMFRun (9 / 5) 32 s s' := by
  obtain ⟨s0, hs0, hrun⟩ := exSKRun
  obtain ⟨s, hs⟩ := hrun 5 10 0
  have hs1 : mfSession (mfBO (exOutside 1) exInterval (fun xs => .ok (xs.map fun x => x 0 ^ 2)) (fun xs => .ok (xs.map fun x => x 0)) none (vflcbQuery (1, 1) none (exOutside 1).de)
      "ScaledKriging" 1996) ((0 : ℕ), [3, 3]) [(5, 10, 0)] = .ok s := by
    unfold mfSession
    refine Py.bind_ok.mpr ⟨s0, hs0, ?_⟩
    rw [List.foldlM_cons]
    exact Py.bind_ok.mpr ⟨s, hs, rfl⟩
  have h := C132_vflcb (a := 9 / 5) (by norm_num) 32 (exOutside 1) (exOutside_unitFreeValues 1) exInterval (fun xs => .ok (xs.map fun x => x 0 ^ 2)) (fun xs => .ok (xs.map fun x => x 0)) none
    (Or.inl rfl) (1, 1) none "ScaledKriging" 1996 ((0 : ℕ), [3, 3]) [(5, 10, 0)]
  obtain ⟨s', hs', hr⟩ := h.2 s hs1
  exact ⟨s, s', hs1, hs', hr⟩

end Mfpml.Props
