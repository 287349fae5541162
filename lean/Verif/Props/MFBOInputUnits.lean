import Verif.Props.BOInputUnits
import Verif.Props.MFBOUnits

/-!
# C154: multi-fidelity Bayesian optimisation in other units of the design variables

Vocabulary: `Verif/Spec/BOInputUnits.lean`.
-/

open scoped BigOperators

namespace Mfpml.Props

open Mfpml Mfpml.Acq Mfpml.GP Mfpml.Spec Mfpml.BO
open Mfpml.EA (Box)
open Mfpml.Sampling (getSamples mkShared)

variable {d : ℕ}

/-! ### The loop, for every surrogate -/

/-- The state with every point converted by `φ` and the surrogate by `U`. -/
def MFState.conv {X S W : Type} (U : S → S) (φ : X → X) (s : MFState ℝ X S W) : MFState ℝ X S W :=
  { initSample := (s.initSample.1.map φ, s.initSample.2.map φ), initResponse := s.initResponse, sampleH := s.sampleH.map φ, sampleL := s.sampleL.map φ, responseH := s.responseH,
    responseL := s.responseL, surrogate := U s.surrogate, best := s.best, bestX := φ s.bestX, historyBest := s.historyBest, historyBestX := s.historyBestX.map φ,
    fidelityOrder := s.fidelityOrder, rng := s.rng, calls := s.calls.map fun l => (l.1, l.2.map φ) }

/-- `p'` is the problem `p` for converted points. -/
structure MFConvOf {X S W : Type} (U : S → S) (φ : X → X) (p p' : MFProblem ℝ X S W) : Prop where
  hf : ∀ xs, p'.hf (xs.map φ) = p.hf xs
  lf : ∀ xs, p'.lf (xs.map φ) = p.lf xs
  call : ∀ xs, p'.call (xs.1.map φ, xs.2.map φ) = p.call xs
  optimum : p'.optimum = p.optimum
  init : ∀ w, p'.init w = (p.init w).map fun r => ((r.1.1.map φ, r.1.2.map φ), r.2)
  fresh : p'.fresh = p.fresh.map U
  train : ∀ s xs ys w, p'.train (U s) (xs.1.map φ, xs.2.map φ) ys w = (p.train s xs ys w).map fun r => (U r.1, r.2)
  query : ∀ s cr fmin w, p'.query (U s) cr fmin w = (p.query s cr fmin w).map fun r => ((φ r.1.1, r.1.2), r.2)

section
variable {X S W : Type} {U : S → S} {φ : X → X} {p p' : MFProblem ℝ X S W}

theorem mf_new_conv (h : MFConvOf U φ p p') (w : W) : p'.new w = (p.new w).map (MFState.conv U φ) := by
  unfold MFProblem.new
  rw [h.init, h.fresh]
  cases p.init w with
  | error e => rfl
  | ok r =>
    simp only [Except.map, bind, Except.bind, h.call]
    cases p.call r.1 with
    | error e => rfl
    | ok y =>
      simp only
      cases p.fresh with
      | error e => rfl
      | ok su =>
        simp only [h.train]
        cases p.train su r.1 y r.2 with
        | error e => rfl
        | ok t =>
          simp only [Except.map]
          cases npMin y.1 with
          | error e => rfl
          | ok m =>
            cases npArgmin y.1 with
            | error e => rfl
            | ok i =>
              simp only [npRow_map]
              cases npRow r.1.1 i <;> rfl

theorem mfUpdatePara_conv (s : MFState ℝ X S W) (x : X) (y : List ℝ) (fid : ℤ) : mfUpdatePara (MFState.conv U φ s) (φ x) y fid = (mfUpdatePara s x y fid).map (MFState.conv U φ) := by
  unfold mfUpdatePara
  by_cases hf : fid = 0
  · simp only [if_pos hf]
    cases npRow y 0 with
    | error e => rfl
    | ok y0 =>
      simp only [Except.map, bind, Except.bind, show (MFState.conv U φ s).best = s.best from rfl]
      split_ifs <;> simp [MFState.conv]
  · simp only [if_neg hf, bind, Except.bind, Except.map]
    simp [MFState.conv]

theorem mf_iterate_conv (h : MFConvOf U φ p p') (cr : ℝ) (s : MFState ℝ X S W) : p'.iterate cr (MFState.conv U φ s) = (p.iterate cr s).map (MFState.conv U φ) := by
  unfold MFProblem.iterate
  rw [show (MFState.conv U φ s).surrogate = U s.surrogate from rfl, show (MFState.conv U φ s).rng = s.rng from rfl, show (MFState.conv U φ s).best = s.best from rfl, h.query]
  cases p.query s.surrogate cr s.best s.rng with
  | error e => rfl
  | ok r =>
    obtain ⟨⟨x, fid⟩, rng⟩ := r
    simp only [Except.map, bind, Except.bind]
    by_cases hfid : fid = 0
    · have e0 : p'.hf [φ x] = p.hf [x] := h.hf [x]
      simp only [if_pos hfid, e0]
      cases p.hf [x] with
      | error e => rfl
      | ok y =>
        have e : (MFState.conv U φ s).sampleH ++ [φ x] = (s.sampleH ++ [x]).map φ := by
          rw [List.map_append]; rfl
        have ht := h.train s.surrogate (s.sampleH ++ [x], s.sampleL) (s.responseH ++ y, s.responseL) rng
        simp only [e]
        rw [show p'.train (U s.surrogate) ((s.sampleH ++ [x]).map φ, (MFState.conv U φ s).sampleL) ((MFState.conv U φ s).responseH ++ y, (MFState.conv U φ s).responseL) rng = _ from ht]
        cases p.train s.surrogate (s.sampleH ++ [x], s.sampleL) (s.responseH ++ y, s.responseL) rng with
        | error e => rfl
        | ok t =>
          refine Eq.trans ?_ (mfUpdatePara_conv (U := U) (φ := φ)
            { s with sampleH := s.sampleH ++ [x], responseH := s.responseH ++ y, calls := s.calls ++ [(true, [x])], surrogate := t.1, rng := t.2 } x y fid)
          simp [MFState.conv, Except.map]
    · have e0 : p'.lf [φ x] = p.lf [x] := h.lf [x]
      simp only [if_neg hfid, e0]
      cases p.lf [x] with
      | error e => rfl
      | ok y =>
        have e : (MFState.conv U φ s).sampleL ++ [φ x] = (s.sampleL ++ [x]).map φ := by
          rw [List.map_append]; rfl
        have ht := h.train s.surrogate (s.sampleH, s.sampleL ++ [x]) (s.responseH, s.responseL ++ y) rng
        simp only [e]
        rw [show p'.train (U s.surrogate) ((MFState.conv U φ s).sampleH, (s.sampleL ++ [x]).map φ) ((MFState.conv U φ s).responseH, (MFState.conv U φ s).responseL ++ y) rng = _ from ht]
        cases p.train s.surrogate (s.sampleH, s.sampleL ++ [x]) (s.responseH, s.responseL ++ y) rng with
        | error e => rfl
        | ok t =>
          refine Eq.trans ?_ (mfUpdatePara_conv (U := U) (φ := φ)
            { s with sampleL := s.sampleL ++ [x], responseL := s.responseL ++ y, calls := s.calls ++ [(false, [x])], surrogate := t.1, rng := t.2 } x y fid)
          simp [MFState.conv, Except.map]

theorem mf_loop_conv (h : MFConvOf U φ p p') (cr stop : ℝ) : ∀ (k : ℕ) (s : MFState ℝ X S W), p'.loop cr stop k (MFState.conv U φ s) = (p.loop cr stop k s).map (MFState.conv U φ)
  | 0, _ => rfl
  | k + 1, s => by
    unfold MFProblem.loop
    rw [show (MFState.conv U φ s).best = s.best from rfl, h.optimum]
    split_ifs
    · rw [mf_iterate_conv h]
      cases p.iterate cr s with
      | error e => rfl
      | ok s1 => exact mf_loop_conv h cr stop k s1
    · rfl

theorem mf_session_conv (h : MFConvOf U φ p p') (w : W) (runs : List (ℕ × ℝ × ℝ)) : mfSession p' w runs = (mfSession p w runs).map (MFState.conv U φ) := by
  unfold mfSession
  rw [mf_new_conv h]
  cases p.new w with
  | error e => rfl
  | ok s =>
    simp only [Except.map, bind, Except.bind]
    induction runs generalizing s with
    | nil => rfl
    | cons r l ih =>
      simp only [List.foldlM_cons, bind, Except.bind, MFProblem.run, mf_loop_conv h]
      cases p.loop r.2.1 r.2.2 r.1 s with
      | error e => rfl
      | ok s1 => exact ih s1

end

/-! ### The library's surrogates -/

/-- The surrogate in other units of the variables. -/
noncomputable def MFModel.conv (c : UnitChange ℝ d) : MFModel d → MFModel d
  | .hk g fit => .hk (inUnitsHK c.scale c.shift g) (fit.map fun t => ⟨t.1, t.2.1, hkFitInUnits c.scale c.shift t.2.2⟩)
  | .sk g fit => .sk (inUnitsSK c.scale c.shift g) (fit.map fun t => ⟨t.1, t.2.1, skFitInUnits c.scale c.shift t.2.2⟩)
  | .ck g fit => .ck (inUnitsCK c.scale c.shift g) (fit.map fun t => ⟨t.1, t.2.1, t.2.2.1, Mfpml.Props.inUnits c.scale c.shift t.2.2.2.1, Mfpml.Props.inUnits c.scale c.shift t.2.2.2.2⟩)

/-- `MFModel.train` with the arrays in any other form. -/
noncomputable def trainWith (o : Outside d) (m : MFModel d) {nh nl : ℕ} (Xh : Samples nh d) (yh : Fin nh → ℝ) (Xl : Samples nl d) (yl : Fin nl → ℝ) (w : o.env.S) : Py (MFModel d × o.env.S) :=
  match m with
  | .hk g _ => (g.train { lf := (o.world g.lf.kernel w).1, hf := (o.world g.kernel (o.world g.lf.kernel w).2).1 } Xh yh Xl yl).map fun r =>
      (.hk r.1 (some ⟨_, _, r.2⟩), (o.world g.kernel (o.world g.lf.kernel w).2).2)
  | .sk g _ => (g.train { lf := (o.world g.lf.kernel w).1, disc := (o.world g.disc.kernel (o.world g.lf.kernel w).2).1, mini := o.mini, x0 := 0, bumpEvals := [], bumpX := 0 } Xh yh Xl yl).map fun r =>
      (.sk r.1 (some ⟨_, _, r.2⟩), (o.world g.disc.kernel (o.world g.lf.kernel w).2).2)
  | .ck g _ => (g.train { lf := (o.world g.lf.kernel w).1, mini := o.mini, starts := (o.uniform 11 (d + 1) (Fin.cons g.rhoLow fun _ => g.kernel.boundLow) (Fin.cons g.rhoHigh fun _ => g.kernel.boundHigh) (o.world g.lf.kernel w).2).1, startsNoise := [] } Xh yh Xl yl).map fun r =>
      (.ck r.1 (some ⟨_, _, r.2, Xh, Xl⟩), (o.uniform 11 (d + 1) (Fin.cons g.rhoLow fun _ => g.kernel.boundLow) (Fin.cons g.rhoHigh fun _ => g.kernel.boundHigh) (o.world g.lf.kernel w).2).2)

theorem mfModel_train_of (o : Outside d) (m : MFModel d) {nh nl : ℕ} {xs : List (Fin d → ℝ) × List (Fin d → ℝ)} {ys : List ℝ × List ℝ} (hxh : xs.1.length = nh) (hyh : ys.1.length = nh)
    (hxl : xs.2.length = nl) (hyl : ys.2.length = nl) {Xh : Samples nh d} {yh : Fin nh → ℝ} {Xl : Samples nl d} {yl : Fin nl → ℝ}
    (hXh : ∀ i : Fin nh, Xh i = xs.1[i]'(by omega)) (hYh : ∀ i : Fin nh, yh i = ys.1[i]'(by omega)) (hXl : ∀ i : Fin nl, Xl i = xs.2[i]'(by omega))
    (hYl : ∀ i : Fin nl, yl i = ys.2[i]'(by omega)) (w : o.env.S) : m.train o xs ys w = trainWith o m Xh yh Xl yl w := by
  subst hxh hxl
  obtain rfl : Xh = rows xs.1 := funext hXh
  obtain rfl : yh = column ys.1 hyh := funext hYh
  obtain rfl : Xl = rows xs.2 := funext hXl
  obtain rfl : yl = column ys.2 hyl := funext hYl
  unfold MFModel.train trainWith
  rw [dif_pos ⟨hyh, hyl⟩]
  cases m with
  | hk g fit =>
    dsimp only
    generalize g.train _ (rows xs.1) (column ys.1 hyh) (rows xs.2) (column ys.2 hyl) = q
    cases q <;> rfl
  | sk g fit =>
    dsimp only
    generalize g.train _ (rows xs.1) (column ys.1 hyh) (rows xs.2) (column ys.2 hyl) = q
    cases q <;> rfl
  | ck g fit =>
    dsimp only
    generalize g.train _ (rows xs.1) (column ys.1 hyh) (rows xs.2) (column ys.2 hyl) = q
    cases q <;> rfl

theorem trainWith_conv {c : UnitChange ℝ d} (hc : ∀ j, 0 < c.scale j) (o : Outside d) (m : MFModel d) {nh nl : ℕ} (Xh : Samples nh d) (yh : Fin nh → ℝ) (Xl : Samples nl d) (yl : Fin nl → ℝ)
    (w : o.env.S) :
    trainWith o (MFModel.conv c m) (inUnits c.scale c.shift Xh) yh (inUnits c.scale c.shift Xl) yl w = (trainWith o m Xh yh Xl yl w).map fun r => (MFModel.conv c r.1, r.2) := by
  have hne : ∀ j, c.scale j ≠ 0 := fun j => (hc j).ne'
  cases m with
  | hk g fit =>
    show Except.map _ ((inUnitsHK c.scale c.shift g).train _ _ _ _ _) = _
    rw [hk_train_inUnits hne]
    simp only [trainWith]
    show Except.map _ (Except.map _ (g.train { lf := (o.world g.lf.kernel w).1, hf := (o.world g.kernel (o.world g.lf.kernel w).2).1 } Xh yh Xl yl)) = _
    generalize g.train { lf := (o.world g.lf.kernel w).1, hf := (o.world g.kernel (o.world g.lf.kernel w).2).1 } Xh yh Xl yl = q
    cases q <;> rfl
  | sk g fit =>
    show Except.map _ ((inUnitsSK c.scale c.shift g).train _ _ _ _ _) = _
    rw [sk_train_inUnits hne]
    simp only [trainWith]
    show Except.map _ (Except.map _ (g.train { lf := (o.world g.lf.kernel w).1, disc := (o.world g.disc.kernel (o.world g.lf.kernel w).2).1, mini := o.mini, x0 := 0, bumpEvals := [], bumpX := 0 } Xh yh Xl yl)) = _
    generalize g.train { lf := (o.world g.lf.kernel w).1, disc := (o.world g.disc.kernel (o.world g.lf.kernel w).2).1, mini := o.mini, x0 := 0, bumpEvals := [], bumpX := 0 } Xh yh Xl yl = q
    cases q <;> rfl
  | ck g fit =>
    show Except.map _ ((inUnitsCK c.scale c.shift g).train _ _ _ _ _) = _
    rw [ck_train_inUnits hne]
    simp only [trainWith]
    show Except.map _ (Except.map _ (g.train { lf := (o.world g.lf.kernel w).1, mini := o.mini, starts := (o.uniform 11 (d + 1) (Fin.cons g.rhoLow fun _ => g.kernel.boundLow) (Fin.cons g.rhoHigh fun _ => g.kernel.boundHigh) (o.world g.lf.kernel w).2).1, startsNoise := [] } Xh yh Xl yl)) = _
    generalize g.train { lf := (o.world g.lf.kernel w).1, mini := o.mini, starts := (o.uniform 11 (d + 1) (Fin.cons g.rhoLow fun _ => g.kernel.boundLow) (Fin.cons g.rhoHigh fun _ => g.kernel.boundHigh) (o.world g.lf.kernel w).2).1, startsNoise := [] } Xh yh Xl yl = q
    cases q <;> rfl

theorem mfModel_train_conv {c : UnitChange ℝ d} (hc : ∀ j, 0 < c.scale j) (o : Outside d) (m : MFModel d) (xs : List (Fin d → ℝ) × List (Fin d → ℝ)) (ys : List ℝ × List ℝ) (w : o.env.S) :
    (MFModel.conv c m).train o (xs.1.map c.point, xs.2.map c.point) ys w = (m.train o xs ys w).map fun r => (MFModel.conv c r.1, r.2) := by
  by_cases h : ys.1.length = xs.1.length ∧ ys.2.length = xs.2.length
  · rw [mfModel_train_of o m rfl h.1 rfl h.2 (Xh := rows xs.1) (yh := column ys.1 h.1) (Xl := rows xs.2) (yl := column ys.2 h.2) (fun _ => rfl) (fun _ => rfl) (fun _ => rfl) (fun _ => rfl),
      mfModel_train_of o (MFModel.conv c m) (List.length_map _) h.1 (List.length_map _) h.2 (Xh := inUnits c.scale c.shift (rows xs.1)) (yh := column ys.1 h.1)
        (Xl := inUnits c.scale c.shift (rows xs.2)) (yl := column ys.2 h.2) (fun i => by simp only [Fin.getElem_fin, List.getElem_map]; rfl) (fun _ => rfl)
        (fun i => by simp only [Fin.getElem_fin, List.getElem_map]; rfl) (fun _ => rfl)]
    exact trainWith_conv hc o m _ _ _ _ w
  · unfold MFModel.train
    rw [dif_neg h, dif_neg (by simp only [List.length_map]; exact h)]
    rfl

/-- What an acquisition sees, in other units of the variables. -/
noncomputable def MFSurr.conv (c : UnitChange ℝ d) (s : MFSurr d) : MFSurr d :=
  { isHK := s.isHK, bound := s.bound.map c.space, predict := fun m X => s.predict m fun i => back c (X i), predictStd := fun m X => s.predictStd m fun i => back c (X i),
    predictLfStd := fun m X => s.predictLfStd m fun i => back c (X i), numH := s.numH, sampleH := fun i => c.point (s.sampleH i), numL := s.numL, sampleL := fun i => c.point (s.sampleL i),
    beta := s.beta, evalCorr := fun m k X X' => s.evalCorr m k (fun i => back c (X i)) fun i => back c (X' i) }

theorem mfModel_view_conv {c : UnitChange ℝ d} (hc : ∀ j, 0 < c.scale j) (m : MFModel d) : (MFModel.conv c m).view = m.view.map (MFSurr.conv c) := by
  have hne : ∀ j, c.scale j ≠ 0 := fun j => (hc j).ne'
  have hb : ∀ {n : ℕ} (X : Samples n d), X = inUnits c.scale c.shift fun i => back c (X i) := fun X => funext fun i => (point_back hc (X i)).symm
  cases m with
  | hk g fit =>
    cases fit with
    | none => rfl
    | some t =>
      show Except.ok (MFSurr.ofHK (inUnitsHK c.scale c.shift g) (hkFitInUnits c.scale c.shift t.2.2)) = Except.ok (MFSurr.conv c (MFSurr.ofHK g t.2.2))
      congr 1
      unfold MFSurr.ofHK MFSurr.conv
      simp only [MFSurr.mk.injEq, heq_eq_eq, true_and]
      refine ⟨rfl, ?_, ?_, ?_, rfl, rfl, rfl, ?_⟩
      · funext m X
        conv_lhs => rw [hb X]
        exact hk_predict_inUnits hne g t.2.2 _
      · funext m X
        conv_lhs => rw [hb X]
        exact hk_predictStd_inUnits hne g t.2.2 _
      · funext m X
        conv_lhs => rw [hb X]
        exact gp_predictStd_inUnits hne g.lf t.2.2.lfFit _
      · funext m k X X' fid
        conv_lhs => rw [hb X, hb X']
        unfold HKObj.evalCorr
        simp only [inUnitsHK, normalizeInput_inUnits hne, inUnitsGP]
  | sk g fit =>
    cases fit with
    | none => rfl
    | some t =>
      show Except.ok (MFSurr.ofSK (inUnitsSK c.scale c.shift g) (skFitInUnits c.scale c.shift t.2.2)) = Except.ok (MFSurr.conv c (MFSurr.ofSK g t.2.2))
      congr 1
      unfold MFSurr.ofSK MFSurr.conv
      simp only [MFSurr.mk.injEq, heq_eq_eq, true_and]
      refine ⟨rfl, ?_, ?_, ?_, rfl, rfl, ?_⟩
      · funext m X
        conv_lhs => rw [hb X]
        exact sk_predict_inUnits hne g t.2.2 _
      · funext m X
        conv_lhs => rw [hb X]
        exact sk_predictStd_inUnits hne g t.2.2 _
      · funext m X
        conv_lhs => rw [hb X]
        exact gp_predictStd_inUnits hne g.lf t.2.2.lfFit _
      · funext m k X X' fid
        conv_lhs => rw [hb X, hb X']
        simp only [inUnitsSK, normalizeInput_inUnits hne, inUnitsGP]
  | ck g fit =>
    cases fit with
    | none => rfl
    | some t =>
      show Except.ok (MFSurr.ofCK (inUnitsCK c.scale c.shift g) t.2.2.1 (inUnits c.scale c.shift t.2.2.2.1) (inUnits c.scale c.shift t.2.2.2.2)) =
        Except.ok (MFSurr.conv c (MFSurr.ofCK g t.2.2.1 t.2.2.2.1 t.2.2.2.2))
      congr 1
      unfold MFSurr.ofCK MFSurr.conv
      simp only [MFSurr.mk.injEq, heq_eq_eq, true_and]
      refine ⟨rfl, ?_, ?_, ?_, rfl, rfl, ?_⟩
      · funext m X
        conv_lhs => rw [hb X]
        exact ck_predict_inUnits hne g t.2.2.1 _
      · funext m X
        conv_lhs => rw [hb X]
        rw [ck_predictStd_inUnits hne g t.2.2.1]
        generalize g.predictStd t.2.2.1 (fun i => back c (X i)) = q
        cases q <;> rfl
      · funext m X
        conv_lhs => rw [hb X]
        exact ck_predictLfStd_inUnits hne g t.2.2.1 _
      · trivial

/-! ### The acquisitions -/

section
variable {W : Type} {c : UnitChange ℝ d}

theorem mfPredict_conv (hc : ∀ j, 0 < c.scale j) (s : MFSurr d) {m : ℕ} (X : Samples m d) :
    (MFSurr.conv c s).predict m (fun i => c.point (X i)) = s.predict m X ∧ (MFSurr.conv c s).predictStd m (fun i => c.point (X i)) = s.predictStd m X ∧
    (MFSurr.conv c s).predictLfStd m (fun i => c.point (X i)) = s.predictLfStd m X := by
  simp only [MFSurr.conv, back_point hc, and_self]

theorem mfChoose_conv (hc : ∀ j, 0 < c.scale j) {E E' : ℤ → (Fin d → ℝ) → Py ℝ} (hE : ∀ fid x, E' fid (c.point x) = E fid x) {de : DiffEvo W d} (hde : UnitFreeInputs de)
    (bound : Py (Box ℝ d)) (w : W) : mfChoose E' none de (bound.map c.space) w = (mfChoose E none de bound w).map fun r => ((c.point r.1.1, r.1.2), r.2) := by
  unfold mfChoose
  dsimp only
  cases bound with
  | error e => rfl
  | ok b =>
    simp only [Except.map, bind, Except.bind]
    rw [hde c (E 0) (E' 0) hc (hE 0)]
    cases de (E 0) b w with
    | error e => rfl
    | ok r =>
      simp only [Except.map]
      rw [hde c (E 1) (E' 1) hc (hE 1)]
      cases de (E 1) b r.2 with
      | error e => rfl
      | ok r' =>
        simp only [Except.map]
        split_ifs <;> rfl

theorem fidelityCorr_conv (hc : ∀ j, 0 < c.scale j) (s : MFSurr d) {m : ℕ} (x : Samples m d) (fid : ℤ) : fidelityCorr (MFSurr.conv c s) (fun i => c.point (x i)) fid = fidelityCorr s x fid := by
  unfold fidelityCorr
  rw [(mfPredict_conv hc s x).2.1, (mfPredict_conv hc s x).2.2]

theorem effectiveBest_conv (hc : ∀ j, 0 < c.scale j) (s : MFSurr d) : effectiveBest (MFSurr.conv c s) = (effectiveBest s).map c.point := by
  have ha : (Fin.append (fun i => c.point (s.sampleH i)) fun i => c.point (s.sampleL i)) = fun i => c.point (Fin.append s.sampleH s.sampleL i) := by
    funext i
    refine Fin.addCases (fun i => ?_) (fun i => ?_) i
    · rw [Fin.append_left, Fin.append_left]
    · rw [Fin.append_right, Fin.append_right]
  unfold effectiveBest
  show ((s.predictStd (s.numH + s.numL) fun i => back c (Fin.append (fun i => c.point (s.sampleH i)) (fun i => c.point (s.sampleL i)) i)) >>= fun r =>
    npArgmin (List.ofFn fun j => r.1 j + 1 * r.2 j) >>= fun i => npRow (List.ofFn (Fin.append (fun i => c.point (s.sampleH i)) fun i => c.point (s.sampleL i))) i) = _
  rw [ha]
  simp only [back_point hc]
  show (s.predictStd (s.numH + s.numL) (Fin.append s.sampleH s.sampleL) >>= _) = Except.map _ (s.predictStd (s.numH + s.numL) (Fin.append s.sampleH s.sampleL) >>= _)
  cases s.predictStd (s.numH + s.numL) (Fin.append s.sampleH s.sampleL) with
  | error e => rfl
  | ok r =>
    simp only [bind, Except.bind]
    cases npArgmin (List.ofFn fun j => r.1 j + 1 * r.2 j) with
    | error e => rfl
    | ok i =>
      have : List.ofFn (fun i => c.point (Fin.append s.sampleH s.sampleL i)) = (List.ofFn (Fin.append s.sampleH s.sampleL)).map c.point := by rw [List.map_ofFn]; rfl
      exact (congrArg (fun l => npRow l i) this).trans (npRow_map c.point _ i)

/-- The acquisition's `query` does not depend on the units of the variables: it gives the converted point and the same fidelity. -/
def MFAcqConv (c : UnitChange ℝ d) (q : MFQuery W d) : Prop := ∀ s cr fmin w, q (MFSurr.conv c s) cr fmin w = (q s cr fmin w).map fun r => ((c.point r.1.1, r.1.2), r.2)

theorem vflcb_conv (hc : ∀ j, 0 < c.scale j) (kappa : ℝ × ℝ) {de : DiffEvo W d} (hde : UnitFreeInputs de) : MFAcqConv c (vflcbQuery kappa none de) := by
  intro s cr fmin w
  refine mfChoose_conv hc (fun fid x => single_conv (fun x => ?_) x) hde s.bound w
  unfold vflcbEval
  rw [(mfPredict_conv hc s x).2.1, (mfPredict_conv hc s x).2.2]

theorem vfei_conv (hc : ∀ j, 0 < c.scale j) {de : DiffEvo W d} (hde : UnitFreeInputs de) : MFAcqConv c (vfeiQuery none de) := by
  intro s cr fmin w
  refine mfChoose_conv hc (fun fid x => single_conv (fun x => ?_) x) hde s.bound w
  unfold vfeiEval
  rw [(mfPredict_conv hc s x).2.1, (mfPredict_conv hc s x).2.2]
  rfl

theorem aei_conv (hc : ∀ j, 0 < c.scale j) {de : DiffEvo W d} (hde : UnitFreeInputs de) : MFAcqConv c (aeiQuery none de) := by
  intro s cr fmin w
  refine mfChoose_conv hc (fun fid x => single_conv (fun x => ?_) x) hde s.bound w
  unfold aeiEval
  rw [(mfPredict_conv hc s x).2.1, effectiveBest_conv hc, fidelityCorr_conv hc]
  cases s.predictStd 1 x with
  | error e => rfl
  | ok r =>
    simp only [bind, Except.bind]
    cases effectiveBest s with
    | error e => rfl
    | ok xb =>
      simp only [Except.map]
      rw [show (MFSurr.conv c s).predict 1 (onePoint (c.point xb)) = s.predict 1 (onePoint xb) from (mfPredict_conv hc s (onePoint xb)).1]

theorem epiEval_conv (hc : ∀ j, 0 < c.scale j) (s : MFSurr d) (fmin cr : ℝ) (fid : ℤ) {m : ℕ} (x : Samples m d) :
    epiEval (MFSurr.conv c s) fmin cr fid (fun i => c.point (x i)) = epiEval s fmin cr fid x := by
  unfold epiEval
  rw [(mfPredict_conv hc s x).2.1, fidelityCorr_conv hc]
  have h0 : s.evalCorr m s.numH (fun i => back c (c.point (x i))) (fun i => back c (c.point (s.sampleH i))) 0 = s.evalCorr m s.numH x s.sampleH 0 := by simp only [back_point hc]
  have h1 : s.evalCorr m s.numL (fun i => back c (c.point (x i))) (fun i => back c (c.point (s.sampleL i))) 1 = s.evalCorr m s.numL x s.sampleL 1 := by simp only [back_point hc]
  cases s.predictStd m x with
  | error e => rfl
  | ok r =>
    simp only [bind, Except.bind]
    cases fidelityCorr s x fid with
    | error e => rfl
    | ok o =>
      cases o with
      | none => rfl
      | some a =>
        simp only
        split_ifs
        · show Except.bind (s.evalCorr m s.numH (fun i => back c (c.point (x i))) (fun i => back c (c.point (s.sampleH i))) 0) _ = Except.bind (s.evalCorr m s.numH x s.sampleH 0) _
          rw [h0]
          cases s.evalCorr m s.numH x s.sampleH 0 with
          | error e => rfl
          | ok R => cases R <;> rfl
        · show Except.bind (s.evalCorr m s.numL (fun i => back c (c.point (x i))) (fun i => back c (c.point (s.sampleL i))) 1) _ = Except.bind (s.evalCorr m s.numL x s.sampleL 1) _
          rw [h1]
          cases s.evalCorr m s.numL x s.sampleL 1 with
          | error e => rfl
          | ok R => cases R <;> rfl

theorem epi_conv (hc : ∀ j, 0 < c.scale j) {de : DiffEvo W d} (hde : UnitFreeInputs de) : MFAcqConv c (epiQuery none de) := by
  intro s cr fmin w
  unfold epiQuery
  rw [show (MFSurr.conv c s).bound = s.bound.map c.space from rfl]
  cases hb : s.bound with
  | error e => rfl
  | ok b =>
    simp only [Except.map, bind, Except.bind]
    rw [hde c (single (s.predict 1)) _ hc (single_conv fun x => (mfPredict_conv hc s x).1)]
    cases de (single (s.predict 1)) b w with
    | error e => rfl
    | ok r =>
      simp only [Except.map]
      exact mfChoose_conv hc (fun fid x => single_conv (fun x => by rw [epiEval_conv hc]) x) hde (.ok b) r.2

end

/-! ### C154 -/

theorem mfInit_conv (o : Outside d) (c : UnitChange ℝ d) (box : Box ℝ d) (seed : ℕ) (w : o.env.S × List ℕ) :
    mfInit o (c.space box) seed w = (mfInit o box seed w).map fun r => ((r.1.1.map c.point, r.1.2.map c.point), r.2) := by
  have h : getSamples o.env (mkShared false (c.space box) 2 false none) w.2 (some seed) (o.env.seed seed w.1) = _ :=
    C153_mf o.env c (mkShared false box 2 false none) w.2 (some seed) (o.env.seed seed w.1)
  unfold mfInit
  rw [h]
  generalize getSamples o.env (mkShared false box 2 false none) w.2 (some seed) (o.env.seed seed w.1) = q
  rcases q with e | ⟨l, r⟩
  · rfl
  · rcases l with _ | ⟨a, _ | ⟨a', _ | ⟨a'', l⟩⟩⟩ <;> rfl

theorem freshMF_conv (c : UnitChange ℝ d) (box : Box ℝ d) (name : String) : freshMF (c.space box) name = (freshMF box name).map (MFModel.conv c) := by
  unfold freshMF
  split_ifs <;> rfl

theorem mfBO_convOf {c : UnitChange ℝ d} (hc : ∀ j, 0 < c.scale j) (o : Outside d) (box : Box ℝ d) {hf hf' lf lf' : List (Fin d → ℝ) → Py (List ℝ)} (hhf : SameFunction c hf hf')
    (hlf : SameFunction c lf lf') (optimum : Option ℝ) {q : MFQuery o.env.S d} (hq : MFAcqConv c q) (name : String) (seed : ℕ) :
    MFConvOf (MFModel.conv c) c.point (mfBO o box hf lf optimum q name seed) (mfBO o (c.space box) hf' lf' optimum q name seed) where
  hf := hhf
  lf := hlf
  call := fun xs => by
    show (do let h ← hf' (xs.1.map c.point); let l ← lf' (xs.2.map c.point); .ok (h, l) : Py _) = (do let h ← hf xs.1; let l ← lf xs.2; .ok (h, l))
    rw [hhf, hlf]
  optimum := rfl
  init := mfInit_conv o c box seed
  fresh := freshMF_conv c box name
  train := fun s xs ys w => by
    show (do let (m', w') ← (MFModel.conv c s).train o (xs.1.map c.point, xs.2.map c.point) ys w.1; .ok (m', (w', w.2)) : Py _) = (do let (m', w') ← s.train o xs ys w.1; .ok (m', (w', w.2)) : Py _).map _
    rw [mfModel_train_conv hc]
    cases s.train o xs ys w.1 <;> rfl
  query := fun s cr fmin w => by
    show (do let v ← (MFModel.conv c s).view; let (r, w') ← q v cr fmin w.1; .ok (r, (w', w.2)) : Py _) = (do let v ← s.view; let (r, w') ← q v cr fmin w.1; .ok (r, (w', w.2)) : Py _).map _
    rw [mfModel_view_conv hc]
    cases s.view with
    | error e => rfl
    | ok v =>
      simp only [Except.map, bind, Except.bind, hq v cr fmin w.1]
      cases q v cr fmin w.1 <;> rfl

/-- **C154 (several fidelities).** The same for the multi-fidelity optimiser, for each of its surrogates and acquisitions: the same fidelities are evaluated, at the converted points, with the same values. -/
theorem C154_mf {c : UnitChange ℝ d} (hc : ∀ j, 0 < c.scale j) (o : Outside d) (hde : UnitFreeInputs o.de) (box : Box ℝ d) {hf hf' lf lf' : List (Fin d → ℝ) → Py (List ℝ)}
    (hhf : SameFunction c hf hf') (hlf : SameFunction c lf lf') (optimum : Option ℝ) {q : MFQuery o.env.S d}
    (hq : (∃ kappa, q = vflcbQuery kappa none o.de) ∨ q = vfeiQuery none o.de ∨ q = aeiQuery none o.de ∨ q = epiQuery none o.de) (name : String) (seed : ℕ) (w : o.env.S × List ℕ)
    (runs : List (ℕ × ℝ × ℝ)) :
    (∀ e, mfSession (mfBO o (c.space box) hf' lf' optimum q name seed) w runs = .error e ↔ mfSession (mfBO o box hf lf optimum q name seed) w runs = .error e) ∧
    ∀ s, mfSession (mfBO o box hf lf optimum q name seed) w runs = .ok s → ∃ s', mfSession (mfBO o (c.space box) hf' lf' optimum q name seed) w runs = .ok s' ∧ SameMFRunIn c s s' := by
  have hq' : MFAcqConv c q := by
    rcases hq with ⟨kappa, rfl⟩ | rfl | rfl | rfl
    · exact vflcb_conv hc kappa hde
    · exact vfei_conv hc hde
    · exact aei_conv hc hde
    · exact epi_conv hc hde
  exact map_same (g := MFState.conv (MFModel.conv c) c.point) (fun s => ⟨rfl, rfl, rfl, rfl, rfl, rfl, rfl, rfl, rfl, rfl, rfl⟩)
    (mf_session_conv (mfBO_convOf hc o box hhf hlf optimum hq' name seed) w runs)

/-- The multi-fidelity part is not vacuous: scaled Kriging with `VFLCB` on `x²` and `x` runs, in metres and in millimetres. -/
example : ∃ s s', mfSession (mfBO (exOutside 1) exInterval (fun xs => .ok (xs.map fun x => x 0 ^ 2)) (fun xs => .ok (xs.map fun x => x 0)) none (vflcbQuery (1, 1) none (exOutside 1).de)
      "ScaledKriging" 1996) ((0 : ℕ), [3, 3]) [(5, 10, 0)] = .ok s ∧
    mfSession (mfBO (exOutside 1) (UnitChange.space ⟨fun _ => 1000, fun _ => 0⟩ exInterval) (fun xs => .ok (xs.map fun x => (x 0 / 1000) ^ 2)) (fun xs => .ok (xs.map fun x => x 0 / 1000)) none
      (vflcbQuery (1, 1) none (exOutside 1).de) "ScaledKriging" 1996) ((0 : ℕ), [3, 3]) [(5, 10, 0)] = .ok s' ∧ SameMFRunIn ⟨fun _ => 1000, fun _ => 0⟩ s s' := by
  obtain ⟨s0, hs0, hrun⟩ := exSKRun
  obtain ⟨s, hs⟩ := hrun 5 10 0
  have hs1 : mfSession (mfBO (exOutside 1) exInterval (fun xs => .ok (xs.map fun x => x 0 ^ 2)) (fun xs => .ok (xs.map fun x => x 0)) none (vflcbQuery (1, 1) none (exOutside 1).de)
      "ScaledKriging" 1996) ((0 : ℕ), [3, 3]) [(5, 10, 0)] = .ok s := by
    unfold mfSession
    refine Py.bind_ok.mpr ⟨s0, hs0, ?_⟩
    rw [List.foldlM_cons]
    exact Py.bind_ok.mpr ⟨s, hs, rfl⟩
  have h := C154_mf (c := ⟨fun _ => 1000, fun _ => 0⟩) (by norm_num) (exOutside 1) (exOutside_unitFreeInputs 1) exInterval (hf := fun xs => .ok (xs.map fun x => x 0 ^ 2))
    (hf' := fun xs => .ok (xs.map fun x => (x 0 / 1000) ^ 2)) (lf := fun xs => .ok (xs.map fun x => x 0)) (lf' := fun xs => .ok (xs.map fun x => x 0 / 1000))
    (fun xs => by simp [UnitChange.point]) (fun xs => by simp [UnitChange.point]) none (q := vflcbQuery (1, 1) none (exOutside 1).de) (Or.inl ⟨_, rfl⟩) "ScaledKriging" 1996 ((0 : ℕ), [3, 3])
    [(5, 10, 0)]
  obtain ⟨s', hs', hr⟩ := h.2 s hs1
  exact ⟨s, s', hs1, hs', hr⟩

end Mfpml.Props
