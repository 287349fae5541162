import Verif.Props.GP
import Verif.Props.MFKriging
import Verif.Props.CoKriging
import Verif.Props.Batch

/-!
# When multi-fidelity models can be trained (C107)
-/

set_option linter.unusedSectionVars false

open scoped BigOperators Matrix

namespace Mfpml.Props

open Mfpml.GP Mfpml.Spec
open Mfpml.EA (Box)

variable {n m d q ql qd nh nl : ℕ}

/-- A Kriging model set up as usual: constant trend, non-empty design space and search bounds, lawful solvers, at least one start point. -/
structure Usual (gp : GPObj d 1) (w : World d) : Prop where
  regr : gp.regr = ordinary d
  box : ∀ j, gp.box.low j < gp.box.high j
  bounds : gp.kernel.boundLow ≤ gp.kernel.boundHigh
  mini : GoodMinimizer w.mini
  opt : ∀ run, gp.optimizer = some run → 0 < d ∧ GoodPopOptimizer run
  starts : w.starts ≠ []
  startsNoise : w.startsNoise ≠ []

/-- The numbers are not all the same. -/
def Varies (y : Fin n → ℝ) : Prop := ∃ i j, y i ≠ y j

theorem usual_trains_iff {gp : GPObj d 1} {w : World d} (hu : Usual gp w) (X : Samples n d) (y : Fin n → ℝ) :
    (∃ gp' t, gp.train w X y = .ok (gp', t)) ↔ Varies y := by
  constructor
  · rintro ⟨gp', t, h⟩
    by_contra hc
    unfold Varies at hc
    push Not at hc
    obtain ⟨e, he⟩ := C31_constant_fails gp w X y hc
    rw [he] at h; cases h
  · rintro ⟨i, j, hij⟩
    exact C31_train_succeeds_default gp w X y hu.regr hu.box hu.bounds hu.mini hu.opt hu.starts hu.startsNoise i j hij

/-- C107 (scaled Kriging, scale factor fixed).  Training works exactly when the low-fidelity responses vary and so do the differences between the high-fidelity responses and the scaled
low-fidelity predictions. -/
theorem C107_sk_trains_iff (sk : SKObj d 1 1) (w : SKWorld d) (hl : Usual sk.lf w.lf) (hd : Usual sk.disc w.disc) (hoff : sk.rhoOptimize = false)
    (Xh : Samples nh d) (yh : Fin nh → ℝ) (Xl : Samples nl d) (yl : Fin nl → ℝ) :
    (∃ sk' t, sk.train w Xh yh Xl yl = .ok (sk', t)) ↔
      Varies yl ∧ ∀ lf' lfFit f, sk.lf.train w.lf Xl yl = .ok (lf', lfFit) → predictMean lf' lfFit Xh = .ok f → Varies (fun i => yh i - sk.rho * f i) := by
  constructor
  · rintro ⟨sk', t, h⟩
    obtain ⟨f, disc, h1, h2, h3, h4, _⟩ := skTrain_ok h
    rw [hoff] at h3
    obtain ⟨e1, e2⟩ := Prod.mk.inj (Except.ok.inj h3)
    refine ⟨(usual_trains_iff hl Xl yl).mp ⟨_, _, h1⟩, fun lf' lfFit f' h1' h2' => ?_⟩
    obtain ⟨e3, e4⟩ := Prod.mk.inj (Except.ok.inj (h1'.symm.trans h1))
    rw [e3, e4, h2] at h2'
    rw [← Except.ok.inj h2', e1]
    rw [← e2] at h4
    exact (usual_trains_iff hd Xh _).mp ⟨_, _, h4⟩
  · rintro ⟨hv, hall⟩
    obtain ⟨lf', lfFit, h1⟩ := (usual_trains_iff hl Xl yl).mpr hv
    have h2 := predictMean_eq (trained_of_train h1).1 Xh
    obtain ⟨disc', discFit, h4⟩ := (usual_trains_iff hd Xh _).mpr (hall _ _ _ h1 h2)
    refine ⟨_, _, Py.bind_ok.mpr ⟨_, h1, Py.bind_ok.mpr ⟨_, h2, Py.bind_ok.mpr ⟨(sk.rho, sk.disc), ?_, Py.bind_ok.mpr ⟨_, h4, rfl⟩⟩⟩⟩⟩
    rw [hoff]; rfl

/-- C107 (scaled Kriging, scale factor found by least squares). -/
theorem C107_sk_trains_partial (sk : SKObj d 1 1) (w : SKWorld d) (hl : Usual sk.lf w.lf) (hd : Usual sk.disc w.disc) (hon : sk.rhoOptimize = true) (hm : sk.rhoMethod = .error)
    (hb : sk.rhoLow ≤ sk.rhoHigh) (hmini : GoodMinimizer w.mini) (hopt : ∀ run, sk.rhoOptimizer = some run → GoodPopOptimizer run)
    (Xh : Samples nh d) (yh : Fin nh → ℝ) (Xl : Samples nl d) (yl : Fin nl → ℝ) (hv : Varies yl)
    (hvd : ∀ lf' lfFit f, sk.lf.train w.lf Xl yl = .ok (lf', lfFit) → predictMean lf' lfFit Xh = .ok f →
      ∀ rho, sk.rhoLow ≤ rho → rho ≤ sk.rhoHigh → Varies (fun i => yh i - rho * f i)) :
    ∃ sk' t, sk.train w Xh yh Xl yl = .ok (sk', t) := by
  obtain ⟨lf', lfFit, h1⟩ := (usual_trains_iff hl Xl yl).mpr hv
  have h2 := predictMean_eq (trained_of_train h1).1 Xh
  set f : Fin nh → ℝ := _ with hf
  have h3 : ∃ rho, sk.optimizeRho w Xh yh f = .ok (rho, sk.disc) ∧ sk.rhoLow ≤ rho ∧ rho ≤ sk.rhoHigh := by
    unfold SKObj.optimizeRho
    rw [hm]
    cases ho : sk.rhoOptimizer with
    | none =>
      obtain ⟨x, v, hx, hbx, _⟩ := hmini 1 (fun r => .ok (evalError f yh r 0)) (fun _ => w.x0) (fun _ => sk.rhoLow) (fun _ => sk.rhoHigh) (fun _ => hb) (fun _ _ => ⟨_, rfl⟩)
      exact ⟨x 0, Py.bind_ok.mpr ⟨_, hx, rfl⟩, hbx 0⟩
    | some run =>
      obtain ⟨x, hx, hbx⟩ := hopt run ho 1 one_pos (fun r => .ok (evalError f yh r 0)) (fun _ => sk.rhoLow) (fun _ => sk.rhoHigh) (fun _ => hb) (fun _ _ => ⟨_, rfl⟩)
      exact ⟨x 0, Py.bind_ok.mpr ⟨_, hx, rfl⟩, hbx 0⟩
  obtain ⟨rho, h3, hr1, hr2⟩ := h3
  obtain ⟨disc', discFit, h4⟩ := (usual_trains_iff hd Xh _).mpr (hvd _ _ _ h1 h2 rho hr1 hr2)
  refine ⟨_, _, Py.bind_ok.mpr ⟨_, h1, Py.bind_ok.mpr ⟨_, h2, Py.bind_ok.mpr ⟨(rho, sk.disc), ?_, Py.bind_ok.mpr ⟨_, h4, rfl⟩⟩⟩⟩⟩
  rw [hon]; exact h3

theorem exGP_usual (noise : Option ℝ) : Usual (exGP noise) exWorld :=
  ⟨rfl, fun _ => by simp [exGP], by simp [exGP, RBF.mk']; norm_num, cornerMinimizer_good, fun run h => by simp [exGP] at h, by simp [exWorld], by simp [exWorld]⟩

/-- The hypotheses are met and training works. -/
example : ∃ sk' t, (exSK false .error).train exSKWorld exX (fun i => 2 * exY i) exX exY = .ok (sk', t) := by
  refine (C107_sk_trains_iff (exSK false .error) exSKWorld (exGP_usual _) (exGP_usual _) rfl exX _ exX exY).mpr ⟨⟨0, 2, exY_ne⟩, fun lf' lfFit f h1 h2 => ?_⟩
  rw [C34_interpolation _ _ _ _ rfl _ _ h1] at h2
  rw [← Except.ok.inj h2]
  refine ⟨0, 2, ?_⟩
  simp only [exSK, SKObj.new, one_mul]
  have := exY_ne
  intro he
  exact this (by linarith)

/-- C107 is false for scaled Kriging: if the high-fidelity responses are the low-fidelity ones at the same samples plus a constant, a model without noise raises, whatever the data,
the constant, the solvers and the trends. -/
theorem C107_sk_offset_fails (sk : SKObj d ql qd) (w : SKWorld d) (hoff : sk.rhoOptimize = false) (hrho : sk.rho = 1) (hn : sk.lf.noise = some 0)
    (X : Samples n d) (y : Fin n → ℝ) (c : ℝ) : ∃ e, sk.train w X (fun i => y i + c) X y = .error e := by
  cases h : sk.train w X (fun i => y i + c) X y with
  | error e => exact ⟨e, rfl⟩
  | ok r =>
    exfalso
    obtain ⟨f, disc, h1, h2, h3, h4, _⟩ := skTrain_ok (show sk.train w X (fun i => y i + c) X y = .ok (r.1, r.2) from h)
    rw [C34_interpolation _ _ _ _ hn _ _ h1] at h2
    have hf := Except.ok.inj h2
    rw [hoff] at h3
    obtain ⟨e1, e2⟩ := Prod.mk.inj (Except.ok.inj h3)
    obtain ⟨e, he⟩ := C31_constant_fails disc w.disc X (getDisc r.1.rho f fun i => y i + c) (fun i j => by simp [getDisc, ← hf, ← e1, hrho])
    rw [he] at h4; cases h4

theorem C107_sk_counterexample : Usual (exSK false .error).lf exSKWorld.lf ∧ Usual (exSK false .error).disc exSKWorld.disc ∧ Varies exY ∧ Varies (fun i => exY i + 1) ∧
    ∃ e, (exSK false .error).train exSKWorld exX (fun i => exY i + 1) exX exY = .error e :=
  ⟨exGP_usual _, exGP_usual _, ⟨0, 2, exY_ne⟩, ⟨0, 2, fun h => exY_ne (by linarith)⟩, C107_sk_offset_fails _ _ rfl rfl rfl _ _ _⟩

theorem scaleCol_zero {f : Fin n → ℝ} {a s : ℝ} (h : ∀ i, f i = a) : scaleCol f a s = 0 := by
  funext i k; simp [scaleCol, h i]

/-- C107 (hierarchical Kriging with estimated or non-zero noise).  Training works exactly when the responses of both fidelities vary and the low-fidelity predictions at the
high-fidelity samples are not all equal to the mean of the high-fidelity responses. -/
theorem C107_hk_trains_iff (hk : HKObj d 1) (w : MFWorld d) (hl : Usual hk.lf w.lf) (hbox : ∀ j, hk.box.low j < hk.box.high j) (hkb : hk.kernel.boundLow ≤ hk.kernel.boundHigh)
    (hmini : GoodMinimizer w.hf.mini) (hopt : ∀ run, hk.optimizer = some run → 0 < d ∧ GoodPopOptimizer run) (hstarts : w.hf.starts ≠ []) (hstartsN : w.hf.startsNoise ≠ [])
    (hno : hk.noise ≠ some 0) (Xh : Samples nh d) (yh : Fin nh → ℝ) (Xl : Samples nl d) (yl : Fin nl → ℝ) :
    (∃ hk' t, hk.train w Xh yh Xl yl = .ok (hk', t)) ↔
      Varies yl ∧ Varies yh ∧ ∀ lf' lfFit f, hk.lf.train w.lf Xl yl = .ok (lf', lfFit) → predictMean lf' lfFit Xh = .ok f → ∃ i, f i ≠ mean yh := by
  constructor
  · rintro ⟨hk', t, h⟩
    obtain ⟨hT, hX, hy, hb, h1, _, hm, hs, _⟩ := hkTrained_of_train h
    refine ⟨(usual_trains_iff hl Xl yl).mp ⟨_, _, h1⟩, ?_, fun lf' lfFit f h1' h2' => ?_⟩
    · by_contra hc
      unfold Varies at hc
      push Not at hc
      exact (hs ▸ hT.stdpos).ne' ((std_eq_zero_iff yh).mpr hc)
    · by_contra hc
      push Not at hc
      obtain ⟨e3, e4⟩ := Prod.mk.inj (Except.ok.inj (h1'.symm.trans h1))
      obtain ⟨f', hf', hF⟩ := hT.F
      unfold HKObj.predictLf at hf'
      rw [hX, ← e3, ← e4, h2'] at hf'
      rw [← Except.ok.inj hf', hm, scaleCol_zero hc] at hF
      have h0 := hT.gls.inj (a₁ := fun _ => 1) (a₂ := fun _ => 0) (by rw [hF]; simp)
      exact one_ne_zero (congrFun h0 0)
  · rintro ⟨hv, ⟨i, j, hij⟩, hall⟩
    obtain ⟨lf', lfFit, h1⟩ := (usual_trains_iff hl Xl yl).mpr hv
    have h2 := predictMean_eq (trained_of_train h1).1 Xh
    obtain ⟨k, hk0⟩ := hall _ _ _ h1 h2
    exact C41_hk_train_succeeds hk w Xh yh Xl yl hbox hkb hmini hopt hstarts hstartsN i j hij lf' lfFit h1 _ h2 k hk0 (fun h => absurd h hno)

/-- The hypotheses are met and training works. -/
example : ∃ hk' t, exHKB.train ⟨exWorld, exWorld⟩ exX exY exX exY = .ok (hk', t) := by
  obtain ⟨hk', t, _, h, _⟩ := C105_hk_counterexample
  exact ⟨hk', t, h⟩

/-- C107 (co-Kriging with estimated or non-zero noise).  Training works exactly when the high-fidelity responses vary. -/
theorem C107_ck_trains_iff (ck : CKObj d 1) (w : CKWorld d) (hreg : ck.lf.regr = ordinary d) (hbox : ∀ j, ck.box.low j < ck.box.high j)
    (hkb : ck.kernel.boundLow ≤ ck.kernel.boundHigh) (hkl : ck.lf.kernel.boundLow ≤ ck.lf.kernel.boundHigh) (hrho : ck.rhoLow ≤ ck.rhoHigh)
    (hminiL : GoodMinimizer w.lf.mini) (hoptL : ∀ run, ck.lf.optimizer = some run → 0 < d ∧ GoodPopOptimizer run)
    (hmini : GoodMinimizer w.mini) (hopt : ∀ run, ck.optimizer = some run → 0 < d ∧ GoodPopOptimizer run)
    (hs1 : w.lf.starts ≠ []) (hs2 : w.lf.startsNoise ≠ []) (hs3 : w.starts ≠ []) (hs4 : w.startsNoise ≠ []) (hno : ck.noise ≠ some 0) (hnoL : ck.lf.noise ≠ some 0)
    (Xh : Samples nh d) (yh : Fin nh → ℝ) (Xl : Samples nl d) (yl : Fin nl → ℝ) (hnl : 0 < nl) :
    (∃ ck' t, ck.train w Xh yh Xl yl = .ok (ck', t)) ↔ Varies yh := by
  constructor
  · rintro ⟨ck', t, h⟩
    obtain ⟨hT, _, _, _, hs, _⟩ := ckTrained_of_train h
    by_contra hc
    unfold Varies at hc
    push Not at hc
    exact (hs ▸ hT.stdpos).ne' ((std_eq_zero_iff yh).mpr hc)
  · rintro ⟨i, j, hij⟩
    refine C48_train_succeeds ck w Xh yh Xl yl hbox hkb hkl hrho hminiL hoptL hmini hopt hs1 hs2 hs3 hs4 i j hij hnl (by rw [hreg]; exact ordinary_indep _ hnl) ?_ (fun h => absurd h hno)
    rintro (h | ⟨_, h⟩)
    · exact absurd h hno
    · exact absurd h hnoL

example : (∃ ck' t, (exCK (some 1)).train exCKWorld exX exY exX exY = .ok (ck', t)) :=
  exCK_trains (some 1) (by simp) exX exY exX exY 0 2 exY_ne (by norm_num)

/-- Three low-fidelity samples; the first two are also the high-fidelity ones. -/
def exXl : Samples 3 1 := fun i _ => ![0, 1, 2] i

/-- C107 is false for hierarchical Kriging: the low-fidelity responses at the two high-fidelity samples equal the mean of the high-fidelity ones. -/
theorem C107_hk_counterexample : Usual exHKB.lf exWorld ∧ Varies (![0, 0, 1] : Fin 3 → ℝ) ∧ Varies (![-1, 1] : Fin 2 → ℝ) ∧
    ∃ e, exHKB.train ⟨exWorld, exWorld⟩ (fun i => exXl (Fin.castSucc i)) ![-1, 1] exXl ![0, 0, 1] = .error e := by
  have hv : Varies (![0, 0, 1] : Fin 3 → ℝ) := ⟨0, 2, by simp⟩
  refine ⟨exGP_usual _, hv, ⟨0, 1, by norm_num⟩, ?_⟩
  cases h : exHKB.train ⟨exWorld, exWorld⟩ (fun i => exXl (Fin.castSucc i)) ![-1, 1] exXl ![0, 0, 1] with
  | error e => exact ⟨e, rfl⟩
  | ok r =>
    exfalso
    have hiff := C107_hk_trains_iff exHKB ⟨exWorld, exWorld⟩ (exGP_usual _) (fun _ => by simp [exHKB, exHK, exGP]) (by simp [exHKB, exHK, RBF.mk']; norm_num) cornerMinimizer_good
      (fun run h => by simp [exHKB, exHK] at h) (by simp [exWorld]) (by simp [exWorld]) (by simp [exHKB, exHK]) (fun i => exXl (Fin.castSucc i)) ![-1, 1] exXl ![0, 0, 1]
    obtain ⟨_, _, hall⟩ := hiff.mp ⟨r.1, r.2, h⟩
    obtain ⟨lf', lfFit, h1⟩ := (usual_trains_iff (exGP_usual (some 0)) exXl _).mpr hv
    obtain ⟨μ, σ, _, hrow⟩ := C105_gp_rows_partial _ _ _ _ _ _ h1
    have e3 := (C37_gp _ _ _ _ _ (hrow 3 exXl)).symm.trans (C34_interpolation _ _ _ _ rfl _ _ h1)
    have e3' := Except.ok.inj e3
    have hμ : ∀ i : Fin 2, μ i (exXl (Fin.castSucc i)) = 0 := by
      intro i
      have := congrFun e3' i.castSucc
      fin_cases i <;> simpa using this
    obtain ⟨i, hi⟩ := hall lf' lfFit _ h1 (C37_gp _ _ _ _ _ (hrow 2 fun i => exXl (Fin.castSucc i)))
    apply hi
    rw [show mean (![-1, 1] : Fin 2 → ℝ) = 0 by unfold mean; rw [Fin.sum_univ_two]; simp]
    exact hμ i

end Mfpml.Props
