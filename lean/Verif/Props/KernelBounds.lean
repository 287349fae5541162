import Verif.Spec.KernelBounds
import Verif.Props.GPOptimizers
import Verif.Props.BOAssembled
import Verif.Props.MFTrains

/-!
# C159: the option kernel_bound

Vocabulary: `Verif/Spec/KernelBounds.lean`.
-/

namespace Mfpml.Props

open Mfpml Mfpml.GP Mfpml.Spec Mfpml.EA Mfpml.BO

variable {d : ℕ}

/-! ### Searches -/

theorem pso_staysInside {P : ℕ} (cfg : PSOCfg ℝ) (rnd : (p : ℕ) → PSORand ℝ P p) (hu : ∀ p, PSOUnitDraws (rnd p)) : PopStaysInside (psoSearch cfg rnd) := by
  intro p obj lo hi x hb h
  obtain ⟨r, hr, h⟩ := Py.bind_ok.mp h
  cases h
  have hrun := ((C83_pso_raise cfg (rnd p) (evalRows_extends (P := P) obj)).1 r hr).2
  obtain ⟨_, hx, _⟩ := C01_pso_in_design_space (b := { low := lo, high := hi }) hb (hu p) hrun
  obtain ⟨hdict, _⟩ := C04_pso_dictionary_partial hrun
  rw [(hdict rfl).1]
  exact hx

theorem de_staysInside {P : ℕ} (cfg : DECfg ℝ) (rnd : (p : ℕ) → DERand ℝ P p) (hu : ∀ p, DEUnitDraws (rnd p)) : PopStaysInside (deSearch cfg rnd) := by
  intro p obj lo hi x hb h
  obtain ⟨r, hr, h⟩ := Py.bind_ok.mp h
  cases h
  have hrun := ((C83_de_raise cfg (rnd p) (evalRows_extends (P := P) obj)).1 r hr).2
  obtain ⟨_, hx, _⟩ := C08_de_in_design_space (b := { low := lo, high := hi }) hb (hu p) hrun
  obtain ⟨hdict, _⟩ := C11_de_dictionary_partial hrun
  rw [(hdict rfl).1]
  exact hx

theorem restartLoop_inside {p : ℕ} {mini : Minimizer} (hm : StaysInside mini) {obj : (Fin p → ℝ) → Py ℝ} {lo hi : Fin p → ℝ} (hb : ∀ j, lo j ≤ hi j) : ∀ (starts : List (Fin p → ℝ))
    (best r : WithTop ℝ × Option (Fin p → ℝ)), (∀ x, best.2 = some x → Between lo hi x) → restartLoop mini obj lo hi starts best = .ok r → ∀ x, r.2 = some x → Between lo hi x
  | [], best, r, hbest, h => by
    cases h
    exact hbest
  | x0 :: rest, best, r, hbest, h => by
    unfold restartLoop at h
    obtain ⟨⟨x, f⟩, hx, h⟩ := Py.bind_ok.mp h
    dsimp only at h
    split_ifs at h
    · refine restartLoop_inside hm hb rest _ r ?_ h
      intro x' hx'
      cases hx'
      exact hm p obj x0 lo hi x f hb hx
    · exact restartLoop_inside hm hb rest _ r hbest h

theorem searchHyper_inside {p : ℕ} {opt : Option PopOptimizer} {mini : Minimizer} (hm : StaysInside mini) (ho : ∀ run, opt = some run → PopStaysInside run) {obj : (Fin p → ℝ) → Py ℝ} {lo hi : Fin p → ℝ}
    (hb : ∀ j, lo j ≤ hi j) {starts : List (Fin p → ℝ)} {x : Fin p → ℝ} (h : searchHyper opt mini obj lo hi starts = .ok x) : Between lo hi x := by
  unfold searchHyper at h
  cases opt with
  | some run => exact ho run rfl p obj lo hi x hb h
  | none =>
    obtain ⟨r, hr, h⟩ := Py.bind_ok.mp h
    cases hr2 : r.2 with
    | none => rw [hr2] at h; cases h
    | some x' =>
      rw [hr2] at h
      cases h
      exact restartLoop_inside hm hb starts (⊤, none) r (fun _ h => by cases h) hr x hr2

theorem noise_le : noiseLow ≤ noiseHigh := by unfold noiseLow noiseHigh; norm_num

theorem snoc_le {p : ℕ} {a b c e : ℝ} (h : a ≤ b) (h' : c ≤ e) : ∀ j : Fin (p + 1), (Fin.snoc (fun _ : Fin p => a) c : Fin (p + 1) → ℝ) j ≤ (Fin.snoc (fun _ : Fin p => b) e : Fin (p + 1) → ℝ) j := by
  intro j
  refine Fin.lastCases ?_ (fun i => ?_) j
  · simpa using h'
  · simpa using h

theorem paramsWithin_set {bound : ℝ × ℝ} {k : RBF d} {theta : Fin d → ℝ} (h : ∀ j, bound.1 ≤ theta j ∧ theta j ≤ bound.2) : ParamsWithin bound (k.setParams theta) := by
  intro p hp
  obtain ⟨j, rfl⟩ := (List.mem_ofFn' _ _).mp hp
  exact ⟨Real.rpow_le_rpow_of_exponent_le (by norm_num) (h j).1, Real.rpow_le_rpow_of_exponent_le (by norm_num) (h j).2⟩

/-! ### The trainings -/

theorem gp_train_within {n q : ℕ} {gp gp' : GPObj d q} {w : World d} {X : Samples n d} {y : Fin n → ℝ} {t : GPFit n d q} (hm : StaysInside w.mini) (ho : ∀ run, gp.optimizer = some run → PopStaysInside run)
    (hb : gp.kernel.boundLow ≤ gp.kernel.boundHigh) (h : gp.train w X y = .ok (gp', t)) :
    ParamsWithin (gp.kernel.boundLow, gp.kernel.boundHigh) gp'.kernel ∧ gp'.optimizer = gp.optimizer ∧ gp'.kernel.boundLow = gp.kernel.boundLow ∧ gp'.kernel.boundHigh = gp.kernel.boundHigh ∧ gp'.box = gp.box := by
  unfold GPObj.train at h
  obtain ⟨Xs, h1, h⟩ := Py.bind_ok.mp h
  obtain ⟨ys, h2, h⟩ := Py.bind_ok.mp h
  obtain ⟨⟨theta, noise⟩, h3, h⟩ := Py.bind_ok.mp h
  obtain ⟨g, h4, h⟩ := Py.bind_ok.mp h
  cases h
  refine ⟨paramsWithin_set fun j => ?_, rfl, rfl, rfl, rfl⟩
  unfold GPObj.fitHyper at h3
  cases hn : gp.noise with
  | some s =>
    rw [hn] at h3
    obtain ⟨x, hx, h3⟩ := Py.bind_ok.mp h3
    cases h3
    exact searchHyper_inside hm ho (fun _ => hb) hx j
  | none =>
    rw [hn] at h3
    obtain ⟨x, hx, h3⟩ := Py.bind_ok.mp h3
    cases h3
    have := searchHyper_inside hm ho (snoc_le hb noise_le) hx j.castSucc
    simpa using this

theorem raw_train_within {n q : ℕ} {gp gp' : RawGP d q} {w : World d} {X : Samples n d} {y : Fin n → ℝ} {t : RawFit n d q} (hm : StaysInside w.mini) (ho : ∀ run, gp.optimizer = some run → PopStaysInside run)
    (hb : gp.kernel.boundLow ≤ gp.kernel.boundHigh) (h : gp.train w X y = .ok (gp', t)) :
    ParamsWithin (gp.kernel.boundLow, gp.kernel.boundHigh) gp'.kernel ∧ gp'.optimizer = gp.optimizer ∧ gp'.kernel.boundLow = gp.kernel.boundLow ∧ gp'.kernel.boundHigh = gp.kernel.boundHigh := by
  unfold RawGP.train at h
  obtain ⟨⟨theta, noise⟩, h3, h⟩ := Py.bind_ok.mp h
  obtain ⟨g, h4, h⟩ := Py.bind_ok.mp h
  cases h
  refine ⟨paramsWithin_set fun j => ?_, rfl, rfl, rfl⟩
  unfold RawGP.fitHyper at h3
  cases hn : gp.noise with
  | some s =>
    rw [hn] at h3
    obtain ⟨x, hx, h3⟩ := Py.bind_ok.mp h3
    cases h3
    exact searchHyper_inside hm ho (fun _ => hb) hx j
  | none =>
    rw [hn] at h3
    obtain ⟨x, hx, h3⟩ := Py.bind_ok.mp h3
    cases h3
    have := searchHyper_inside hm ho (snoc_le hb noise_le) hx j.castSucc
    simpa using this

/-- **C159 (Kriging).** After any program of trainings and changes of the optimiser that contains a training, the hyper-parameters of the kernel lie within the bounds of the kernel it was created with
(`[-2, 3]` if none was given). The lists of lower and upper bounds the kernel reports stay the ones it was created with. -/
theorem C159_gp (box : Box ℝ d) (kernel : Option (RBF d)) (optimizer : Option PopOptimizer) (noise : Option ℝ) (ho : ∀ run, optimizer = some run → PopStaysInside run)
    (hb : ∀ k, kernel = some k → k.boundLow ≤ k.boundHigh) {gp : GPObj d 1} {b : Bool} (h : GPProgram StaysInside PopStaysInside (GPObj.create box kernel optimizer noise) gp b) :
    (b = true → ParamsWithin ((kernel.getD defaultKernel).boundLow, (kernel.getD defaultKernel).boundHigh) gp.kernel) ∧
    gp.kernel.lowBound = List.replicate d (kernel.getD defaultKernel).boundLow ∧ gp.kernel.highBound = List.replicate d (kernel.getD defaultKernel).boundHigh := by
  have hb' : (kernel.getD defaultKernel).boundLow ≤ (kernel.getD defaultKernel).boundHigh := by
    cases kernel with
    | none => show (-2 : ℝ) ≤ 3; norm_num
    | some k => exact hb k rfl
  suffices H : (b = true → ParamsWithin ((kernel.getD defaultKernel).boundLow, (kernel.getD defaultKernel).boundHigh) gp.kernel) ∧ (∀ run, gp.optimizer = some run → PopStaysInside run) ∧
      gp.kernel.boundLow = (kernel.getD defaultKernel).boundLow ∧ gp.kernel.boundHigh = (kernel.getD defaultKernel).boundHigh from
    ⟨H.1, by simp [RBF.lowBound, RBF.bounds, H.2.2.1], by simp [RBF.highBound, RBF.bounds, H.2.2.2]⟩
  induction h with
  | start => exact ⟨nofun, ho, rfl, rfl⟩
  | train _ hm ht ih =>
    obtain ⟨_, ho, hl, hh⟩ := ih
    obtain ⟨h1, h2, h3, h4, _⟩ := gp_train_within hm ho (by rw [hl, hh]; exact hb') ht
    rw [hl, hh] at h1
    exact ⟨fun _ => h1, by rw [h2]; exact ho, h3.trans hl, h4.trans hh⟩
  | changeOptimizer _ ho ih => exact ⟨ih.1, ho, ih.2.2⟩

/-- **C159 (hierarchical Kriging).** After any program that contains a training, the hyper-parameters of the model's own kernel lie within `kernel_bound`. Missing: those of its low-fidelity model lie within `[-2, 3]`
instead, whatever `kernel_bound` is. -/
theorem C159_hk_partial (box : Box ℝ d) (optimizer : Option PopOptimizer) (kernelBound : ℝ × ℝ) (noise : Option ℝ) (ho : ∀ run, optimizer = some run → PopStaysInside run) (hb : kernelBound.1 ≤ kernelBound.2)
    {hk : HKObj d 1} {b : Bool} (h : HKProgram StaysInside PopStaysInside (HKObj.create box optimizer kernelBound noise) hk b) :
    b = true → ParamsWithin kernelBound hk.kernel ∧ ParamsWithin (-2, 3) hk.lf.kernel := by
  suffices H : (b = true → ParamsWithin kernelBound hk.kernel ∧ ParamsWithin (-2, 3) hk.lf.kernel) ∧ (∀ run, hk.optimizer = some run → PopStaysInside run) ∧
      (∀ run, hk.lf.optimizer = some run → PopStaysInside run) ∧ hk.kernel.boundLow = kernelBound.1 ∧ hk.kernel.boundHigh = kernelBound.2 ∧ hk.lf.kernel.boundLow = -2 ∧ hk.lf.kernel.boundHigh = 3 from H.1
  induction h with
  | start => exact ⟨nofun, ho, ho, rfl, rfl, rfl, rfl⟩
  | @train g _ nh nl w g' t Xh yh Xl yl _ hm hm' ht ih =>
    obtain ⟨_, ho, hol, hl, hh, hll, hlh⟩ := ih
    unfold HKObj.train at ht
    obtain ⟨⟨lf, lfFit⟩, h1, ht⟩ := Py.bind_ok.mp ht
    obtain ⟨Xhs, h2, ht⟩ := Py.bind_ok.mp ht
    obtain ⟨yhs, h3, ht⟩ := Py.bind_ok.mp ht
    obtain ⟨f, h4, ht⟩ := Py.bind_ok.mp ht
    obtain ⟨⟨theta, nz⟩, h5, ht⟩ := Py.bind_ok.mp ht
    obtain ⟨gl, h6, ht⟩ := Py.bind_ok.mp ht
    cases ht
    obtain ⟨a1, a2, a3, a4, _⟩ := gp_train_within hm hol (by rw [hll, hlh]; norm_num) h1
    rw [hll, hlh] at a1
    have hb' : g.kernel.boundLow ≤ g.kernel.boundHigh := by rw [hl, hh]; exact hb
    refine ⟨fun _ => ⟨paramsWithin_set fun j => ?_, a1⟩, ho, ?_, hl, hh, a3.trans hll, a4.trans hlh⟩
    · rw [← hl, ← hh]
      unfold HKObj.fitHyper at h5
      cases hn : g.noise with
      | some s =>
        rw [hn] at h5
        obtain ⟨x, hx, h5⟩ := Py.bind_ok.mp h5
        cases h5
        exact searchHyper_inside hm' ho (fun _ => hb') hx j
      | none =>
        rw [hn] at h5
        obtain ⟨x, hx, h5⟩ := Py.bind_ok.mp h5
        cases h5
        have := searchHyper_inside hm' ho (snoc_le hb' noise_le) hx j.castSucc
        simpa using this
    · intro run hr
      exact hol run (a2 ▸ hr)
  | changeLf _ ho' ih =>
    obtain ⟨i1, i2, i3, i4⟩ := ih
    exact ⟨i1, i2, ho', i4⟩

/-- **C159 (co-Kriging).** The same for co-Kriging. -/
theorem C159_ck_partial (box : Box ℝ d) (optimizer : Option PopOptimizer) (kernelBound rhoBound : ℝ × ℝ) (noise : Option ℝ) (ho : ∀ run, optimizer = some run → PopStaysInside run)
    (hb : kernelBound.1 ≤ kernelBound.2) (hr : rhoBound.1 ≤ rhoBound.2) {ck : CKObj d 1} {b : Bool} (h : CKProgram StaysInside PopStaysInside (CKObj.create box optimizer kernelBound rhoBound noise) ck b) :
    b = true → ParamsWithin kernelBound ck.kernel ∧ ParamsWithin (-2, 3) ck.lf.kernel := by
  suffices H : (b = true → ParamsWithin kernelBound ck.kernel ∧ ParamsWithin (-2, 3) ck.lf.kernel) ∧ (∀ run, ck.optimizer = some run → PopStaysInside run) ∧
      (∀ run, ck.lf.optimizer = some run → PopStaysInside run) ∧ (ck.kernel.boundLow = kernelBound.1 ∧ ck.kernel.boundHigh = kernelBound.2 ∧ ck.lf.kernel.boundLow = -2 ∧ ck.lf.kernel.boundHigh = 3) ∧
      ck.rhoLow = rhoBound.1 ∧ ck.rhoHigh = rhoBound.2 from H.1
  induction h with
  | start => exact ⟨nofun, ho, ho, ⟨rfl, rfl, rfl, rfl⟩, rfl, rfl⟩
  | @train g _ nh nl w g' t Xh yh Xl yl _ hm hm' ht ih =>
    obtain ⟨_, ho, hol, ⟨hl, hh, hll, hlh⟩, hrl, hrh⟩ := ih
    unfold CKObj.train at ht
    obtain ⟨Xhs, h1, ht⟩ := Py.bind_ok.mp ht
    obtain ⟨Xls, h2, ht⟩ := Py.bind_ok.mp ht
    obtain ⟨yhs, h3, ht⟩ := Py.bind_ok.mp ht
    obtain ⟨⟨lf, lfFit⟩, h4, ht⟩ := Py.bind_ok.mp ht
    obtain ⟨⟨rho, theta, nz⟩, h5, ht⟩ := Py.bind_ok.mp ht
    obtain ⟨gl, h6, ht⟩ := Py.bind_ok.mp ht
    obtain ⟨LC, h7, ht⟩ := Py.bind_ok.mp ht
    obtain ⟨a, h8, ht⟩ := Py.bind_ok.mp ht
    obtain ⟨bb, h9, ht⟩ := Py.bind_ok.mp ht
    obtain ⟨mu, h10, ht⟩ := Py.bind_ok.mp ht
    cases ht
    have hlf : ParamsWithin (-2, 3) lf.kernel ∧ lf.optimizer = g.lf.optimizer ∧ lf.kernel.boundLow = -2 ∧ lf.kernel.boundHigh = 3 := by
      cases hn : g.noise with
      | some s =>
        simp only [hn, Option.map_some] at h4
        obtain ⟨a1, a2, a3, a4⟩ := raw_train_within (gp := { g.lf with noise := some (s / std yh) }) hm hol (by show g.lf.kernel.boundLow ≤ g.lf.kernel.boundHigh; rw [hll, hlh]; norm_num) h4
        rw [hll, hlh] at a1
        exact ⟨a1, a2, a3.trans hll, a4.trans hlh⟩
      | none =>
        simp only [hn, Option.map_none] at h4
        obtain ⟨a1, a2, a3, a4⟩ := raw_train_within hm hol (by rw [hll, hlh]; norm_num) h4
        rw [hll, hlh] at a1
        exact ⟨a1, a2, a3.trans hll, a4.trans hlh⟩
    have hb' : g.kernel.boundLow ≤ g.kernel.boundHigh := by rw [hl, hh]; exact hb
    have hr' : g.rhoLow ≤ g.rhoHigh := by rw [hrl, hrh]; exact hr
    refine ⟨fun _ => ⟨paramsWithin_set fun j => ?_, hlf.1⟩, ho, ?_, ⟨hl, hh, hlf.2.2⟩, hrl, hrh⟩
    · rw [← hl, ← hh]
      unfold CKObj.fitHyper at h5
      cases hn : g.noise with
      | some s =>
        simp only [hn, Option.map_some] at h5
        obtain ⟨x, hx, h5⟩ := Py.bind_ok.mp h5
        cases h5
        have := searchHyper_inside hm' ho (lo := Fin.cons g.rhoLow fun _ => g.kernel.boundLow) (hi := Fin.cons g.rhoHigh fun _ => g.kernel.boundHigh)
          (fun j => by refine Fin.cases ?_ (fun i => ?_) j <;> simpa) hx j.succ
        simpa using this
      | none =>
        simp only [hn, Option.map_none] at h5
        obtain ⟨x, hx, h5⟩ := Py.bind_ok.mp h5
        cases h5
        have := searchHyper_inside hm' ho (lo := Fin.cons g.rhoLow (Fin.cons noiseLow fun _ => g.kernel.boundLow)) (hi := Fin.cons g.rhoHigh (Fin.cons noiseHigh fun _ => g.kernel.boundHigh))
          (fun j => by refine Fin.cases ?_ (fun i => Fin.cases ?_ (fun i => ?_) i) j <;> simp [hr', noise_le, hb']) hx j.succ.succ
        simpa using this
    · intro run hr
      exact hol run (hlf.2.1 ▸ hr)
  | changeHf _ ho' ih =>
    obtain ⟨i1, i2, i3⟩ := ih
    exact ⟨i1, ho', i3⟩
  | changeLf _ ho' ih =>
    obtain ⟨i1, i2, i3, i4⟩ := ih
    exact ⟨i1, i2, ho', i4⟩

theorem bumpRun_within {nh q : ℕ} {Xh : Samples nh d} {yh lfAtXh : Fin nh → ℝ} : ∀ (evs : List (ℝ × World d)) {g g' : GPObj d q}, (∀ e ∈ evs, StaysInside e.2.mini) → (∀ run, g.optimizer = some run → PopStaysInside run) →
    g.kernel.boundLow ≤ g.kernel.boundHigh → bumpRun Xh yh lfAtXh evs g = .ok g' → g'.optimizer = g.optimizer ∧ g'.kernel.boundLow = g.kernel.boundLow ∧ g'.kernel.boundHigh = g.kernel.boundHigh
  | [], g, g', _, _, _, h => by
    cases h
    exact ⟨rfl, rfl, rfl⟩
  | (r, w) :: rest, g, g', hm, ho, hb, h => by
    unfold bumpRun evalBumpiness at h
    obtain ⟨⟨g1, v⟩, h1, h⟩ := Py.bind_ok.mp h
    obtain ⟨⟨g2, t⟩, h2, h1⟩ := Py.bind_ok.mp h1
    cases h1
    obtain ⟨_, a2, a3, a4, _⟩ := gp_train_within (hm (r, w) (by simp)) ho hb h2
    obtain ⟨b2, b3, b4⟩ := bumpRun_within rest (fun e he => hm e (by simp [he])) (by rw [a2]; exact ho) (by rw [a3, a4]; exact hb) h
    exact ⟨b2.trans a2, b3.trans a3, b4.trans a4⟩

/-- **C159 (scaled Kriging).** After any program that contains a training, the hyper-parameters of the low-fidelity and of the discrepancy model lie within the bounds of their own kernels, `[-2, 3]` for the default
models; the kernel made from `kernel_bound` keeps its initial parameters, 1. Missing: `kernel_bound` has no influence on the models. -/
theorem C159_sk_partial (box : Box ℝ d) (lf disc : Option (GPObj d 1)) (optimizer : Option PopOptimizer) (kernelBound : ℝ × ℝ) (rhoOptimize : Bool) (rhoMethod : RhoMethod) (rhoBound : ℝ × ℝ)
    (rhoOptimizer : Option PopOptimizer) (noise : Option ℝ) (ho : ∀ run, optimizer = some run → PopStaysInside run)
    (hgiven : ∀ g, lf = some g ∨ disc = some g → g.kernel.boundLow ≤ g.kernel.boundHigh ∧ ∀ run, g.optimizer = some run → PopStaysInside run) {sk : SKModel d} {b : Bool}
    (h : SKProgram StaysInside PopStaysInside (SKModel.create box lf disc optimizer kernelBound rhoOptimize rhoMethod rhoBound rhoOptimizer noise) sk b) :
    (b = true → ParamsWithin ((lf.map fun g => (g.kernel.boundLow, g.kernel.boundHigh)).getD (-2, 3)) sk.obj.lf.kernel ∧
      ParamsWithin ((disc.map fun g => (g.kernel.boundLow, g.kernel.boundHigh)).getD (-2, 3)) sk.obj.disc.kernel) ∧
    (∀ p ∈ sk.kernel.hyperparameters, p = 1) ∧ sk.kernel.bounds = List.replicate d kernelBound := by
  obtain ⟨gl, hgl, egl, hlb, hlo⟩ : ∃ gl : GPObj d 1, (SKModel.create box lf disc optimizer kernelBound rhoOptimize rhoMethod rhoBound rhoOptimizer noise).obj.lf = gl ∧
      (lf.map fun g => (g.kernel.boundLow, g.kernel.boundHigh)).getD (-2, 3) = (gl.kernel.boundLow, gl.kernel.boundHigh) ∧ gl.kernel.boundLow ≤ gl.kernel.boundHigh ∧
      ∀ run, gl.optimizer = some run → PopStaysInside run := by
    cases lf with
    | none => exact ⟨_, rfl, rfl, by show (-2 : ℝ) ≤ 3; norm_num, ho⟩
    | some g => exact ⟨_, rfl, rfl, hgiven g (Or.inl rfl)⟩
  obtain ⟨gd, hgd, egd, hdb, hdo⟩ : ∃ gd : GPObj d 1, (SKModel.create box lf disc optimizer kernelBound rhoOptimize rhoMethod rhoBound rhoOptimizer noise).obj.disc = gd ∧
      (disc.map fun g => (g.kernel.boundLow, g.kernel.boundHigh)).getD (-2, 3) = (gd.kernel.boundLow, gd.kernel.boundHigh) ∧ gd.kernel.boundLow ≤ gd.kernel.boundHigh ∧
      ∀ run, gd.optimizer = some run → PopStaysInside run := by
    cases disc with
    | none => exact ⟨_, rfl, rfl, by show (-2 : ℝ) ≤ 3; norm_num, ho⟩
    | some g => exact ⟨_, rfl, rfl, hgiven g (Or.inr rfl)⟩
  rw [egl, egd]
  suffices H : (b = true → ParamsWithin (gl.kernel.boundLow, gl.kernel.boundHigh) sk.obj.lf.kernel ∧ ParamsWithin (gd.kernel.boundLow, gd.kernel.boundHigh) sk.obj.disc.kernel) ∧ sk.kernel = kernelOf kernelBound ∧
      (sk.obj.lf.kernel.boundLow = gl.kernel.boundLow ∧ sk.obj.lf.kernel.boundHigh = gl.kernel.boundHigh ∧ ∀ run, sk.obj.lf.optimizer = some run → PopStaysInside run) ∧
      (sk.obj.disc.kernel.boundLow = gd.kernel.boundLow ∧ sk.obj.disc.kernel.boundHigh = gd.kernel.boundHigh ∧ ∀ run, sk.obj.disc.optimizer = some run → PopStaysInside run) by
    refine ⟨H.1, ?_, ?_⟩
    · intro p hp
      rw [H.2.1] at hp
      obtain ⟨j, rfl⟩ := (List.mem_ofFn' _ _).mp hp
      simp [kernelOf, RBF.mk', pow10]
    · rw [H.2.1]
      rfl
  clear egl egd hgiven
  induction h with
  | start => rw [hgl, hgd]; exact ⟨nofun, rfl, ⟨rfl, rfl, hlo⟩, rfl, rfl, hdo⟩
  | @train g _ nh nl w g' t Xh yh Xl yl _ hm hm' hm'' ht ih =>
    obtain ⟨_, hk, ⟨l1, l2, l3⟩, d1, d2, d3⟩ := ih
    unfold SKModel.train SKObj.train at ht
    obtain ⟨⟨o, t'⟩, ht', ht⟩ := Py.bind_ok.mp ht
    cases ht
    obtain ⟨⟨lf', lfFit⟩, h1, ht⟩ := Py.bind_ok.mp ht'
    obtain ⟨lfAtXh, h2, ht⟩ := Py.bind_ok.mp ht
    obtain ⟨⟨rho, disc'⟩, h3, ht⟩ := Py.bind_ok.mp ht
    obtain ⟨⟨disc'', discFit⟩, h4, ht⟩ := Py.bind_ok.mp ht
    cases ht
    obtain ⟨a1, a2, a3, a4, _⟩ := gp_train_within hm l3 (by rw [l1, l2]; exact hlb) h1
    have hd : disc'.optimizer = g.obj.disc.optimizer ∧ disc'.kernel.boundLow = g.obj.disc.kernel.boundLow ∧ disc'.kernel.boundHigh = g.obj.disc.kernel.boundHigh := by
      have hid : ∀ {x : ℝ} {m : Py (Fin 1 → ℝ)}, (m >>= fun x => (.ok (x 0, g.obj.disc) : Py (ℝ × GPObj d 1))) = .ok (x, disc') → disc' = g.obj.disc := by
        intro x m hh
        obtain ⟨_, _, hh⟩ := Py.bind_ok.mp hh
        cases hh
        rfl
      split_ifs at h3
      · unfold SKObj.optimizeRho at h3
        split at h3
        · split at h3
          · obtain ⟨⟨x, v⟩, _, h3⟩ := Py.bind_ok.mp h3
            cases h3
            exact ⟨rfl, rfl, rfl⟩
          · obtain ⟨x, _, h3⟩ := Py.bind_ok.mp h3
            cases h3
            exact ⟨rfl, rfl, rfl⟩
        · obtain ⟨x, hx, h3⟩ := Py.bind_ok.mp h3
          cases h3
          exact bumpRun_within _ hm'' d3 (by rw [d1, d2]; exact hdb) hx
        · cases h3
      · cases h3
        exact ⟨rfl, rfl, rfl⟩
    obtain ⟨b1, b2, b3, b4, _⟩ := gp_train_within hm' (by rw [hd.1]; exact d3) (by rw [hd.2.1, hd.2.2, d1, d2]; exact hdb) h4
    rw [l1, l2] at a1
    rw [hd.2.1, hd.2.2, d1, d2] at b1
    refine ⟨fun _ => ⟨a1, b1⟩, hk, ⟨a3.trans l1, a4.trans l2, ?_⟩, (b3.trans hd.2.1).trans d1, (b4.trans hd.2.2).trans d2, ?_⟩
    · intro run hr
      exact l3 run (a2 ▸ hr)
    · intro run hr
      exact d3 run ((b2.trans hd.1) ▸ hr)
  | changeLf _ ho' ih =>
    obtain ⟨i1, i2, ⟨i3, i4, _⟩, i5⟩ := ih
    exact ⟨i1, i2, ⟨i3, i4, ho'⟩, i5⟩
  | changeDisc _ ho' ih =>
    obtain ⟨i1, i2, i3, i4, i5, _⟩ := ih
    exact ⟨i1, i2, i3, i4, i5, ho'⟩

/-- `kernel_bound` does not matter to scaled Kriging at all: with any two values the trainings raise the same exceptions or give the same predictions, and `_eval_corr` is the same, for every kind of data. -/
theorem C159_sk_ignored (box : Box ℝ d) (lf disc : Option (GPObj d 1)) (optimizer : Option PopOptimizer) (kb kb' : ℝ × ℝ) (rhoOptimize : Bool) (rhoMethod : RhoMethod) (rhoBound : ℝ × ℝ)
    (rhoOptimizer : Option PopOptimizer) (noise : Option ℝ) {nh nl : ℕ} (w : SKWorld d) (Xh : Samples nh d) (yh : Fin nh → ℝ) (Xl : Samples nl d) (yl : Fin nl → ℝ) :
    (∀ e, (SKModel.create box lf disc optimizer kb rhoOptimize rhoMethod rhoBound rhoOptimizer noise).train w Xh yh Xl yl = .error e ↔
      (SKModel.create box lf disc optimizer kb' rhoOptimize rhoMethod rhoBound rhoOptimizer noise).train w Xh yh Xl yl = .error e) ∧
    ∀ sk t sk' t', (SKModel.create box lf disc optimizer kb rhoOptimize rhoMethod rhoBound rhoOptimizer noise).train w Xh yh Xl yl = .ok (sk, t) →
      (SKModel.create box lf disc optimizer kb' rhoOptimize rhoMethod rhoBound rhoOptimizer noise).train w Xh yh Xl yl = .ok (sk', t') →
      (∀ m (X : Samples m d), sk.obj.predict t X = sk'.obj.predict t' X ∧ sk.obj.predictStd t X = sk'.obj.predictStd t' X) ∧
      ∀ m m' (X : Samples m d) (X' : Samples m' d) fid, sk.evalCorr X X' fid = sk'.evalCorr X X' fid := by
  have e : (SKModel.create box lf disc optimizer kb rhoOptimize rhoMethod rhoBound rhoOptimizer noise).obj = (SKModel.create box lf disc optimizer kb' rhoOptimize rhoMethod rhoBound rhoOptimizer noise).obj := rfl
  constructor
  · intro er
    unfold SKModel.train
    rw [e]
    cases SKObj.train _ w Xh yh Xl yl with
    | error e' => exact Iff.rfl
    | ok r => exact ⟨nofun, nofun⟩
  · intro sk t sk' t' h h'
    unfold SKModel.train at h h'
    rw [e] at h
    obtain ⟨⟨o, u⟩, h1, h⟩ := Py.bind_ok.mp h
    obtain ⟨⟨o', u'⟩, h1', h'⟩ := Py.bind_ok.mp h'
    rw [h1] at h1'
    cases h1'
    cases h
    cases h'
    exact ⟨fun m X => ⟨rfl, rfl⟩, fun m m' X X' fid => rfl⟩

/-- The high-fidelity correlation `_eval_corr(X, X', fidelity=0)` of a scaled Kriging model, which the acquisitions use, does not depend on the data: after any program it is that of an untrained kernel with all
parameters 1. -/
theorem C159_sk_correlation_partial (box : Box ℝ d) (lf disc : Option (GPObj d 1)) (optimizer : Option PopOptimizer) (kernelBound : ℝ × ℝ) (rhoOptimize : Bool) (rhoMethod : RhoMethod) (rhoBound : ℝ × ℝ)
    (rhoOptimizer : Option PopOptimizer) (noise : Option ℝ) {good : Minimizer → Prop} {goodPop : PopOptimizer → Prop} {sk : SKModel d} {b : Bool}
    (h : SKProgram good goodPop (SKModel.create box lf disc optimizer kernelBound rhoOptimize rhoMethod rhoBound rhoOptimizer noise) sk b) (hbox : ∀ j, box.low j < box.high j) {m k : ℕ} (X : Samples m d)
    (X' : Samples k d) :
    ∃ C, sk.evalCorr X X' 0 = .ok (some C) ∧
      ∀ i j, C i j = Real.exp (-∑ l, ((X i l - X' j l) / (box.high l - box.low l)) ^ 2) + if (i : ℕ) = j then (10 : ℝ) ^ (-10 : ℤ) else 0 := by
  have H : sk.kernel = kernelOf kernelBound ∧ sk.obj.box = box := by
    clear hbox
    induction h with
    | start => exact ⟨rfl, rfl⟩
    | @train g _ nh nl w g' t Xh yh Xl yl _ hm hm' hm'' ht ih =>
      unfold SKModel.train SKObj.train at ht
      obtain ⟨⟨o, t'⟩, ht', ht⟩ := Py.bind_ok.mp ht
      cases ht
      obtain ⟨⟨lf', lfFit⟩, h1, ht⟩ := Py.bind_ok.mp ht'
      obtain ⟨lfAtXh, h2, ht⟩ := Py.bind_ok.mp ht
      obtain ⟨⟨rho, disc'⟩, h3, ht⟩ := Py.bind_ok.mp ht
      obtain ⟨⟨disc'', discFit⟩, h4, ht⟩ := Py.bind_ok.mp ht
      cases ht
      exact ih
    | changeLf _ _ ih => exact ih
    | changeDisc _ _ ih => exact ih
  have hne : ∀ j, sk.obj.box.high j - sk.obj.box.low j ≠ 0 := fun j => by
    rw [H.2]
    exact (sub_pos.mpr (hbox j)).ne'
  refine ⟨_, Py.bind_ok.mpr ⟨_, normalizeInput_eq X hne, Py.bind_ok.mpr ⟨_, normalizeInput_eq X' hne, rfl⟩⟩, fun i j => ?_⟩
  have hp : ∀ l, (kernelOf kernelBound : RBF d).param l = 1 := fun l => by simp [kernelOf, RBF.mk', pow10]
  rw [H.1, H.2]
  unfold RBF.getKernelMatrix rbfMatrix
  rw [rbfDist_eq _ (fun l => by rw [hp]; norm_num)]
  congr 1
  · congr 2
    refine Finset.sum_congr rfl fun l _ => ?_
    rw [hp, one_mul]
    congr 1
    unfold normPt
    rw [← sub_div]
    congr 1
    ring
  · simp [nugget]

/-! ### The bounds do not reach the low-fidelity models -/

theorem corner_staysInside : StaysInside cornerMinimizer := by
  intro p obj x0 lo hi x f hb h
  unfold cornerMinimizer at h
  obtain ⟨v, _, h⟩ := Py.bind_ok.mp h
  cases h
  exact fun j => ⟨le_refl _, hb j⟩

/-- Parameters within `[-2, 3]` are not within a range above it. -/
theorem not_within_above {k : RBF d} (hd : 0 < d) (h : ParamsWithin (-2, 3) k) {bound : ℝ × ℝ} (hb : 3 < bound.1) : ¬ ParamsWithin bound k := by
  intro h'
  have hp : k.param ⟨0, hd⟩ ∈ k.hyperparameters := (List.mem_ofFn' _ _).mpr ⟨_, rfl⟩
  have h1 := (h _ hp).2
  have h2 := (h' _ hp).1
  have h3 : (10 : ℝ) ^ (3 : ℝ) < (10 : ℝ) ^ bound.1 := Real.rpow_lt_rpow_of_exponent_lt (by norm_num) hb
  exact absurd (h2.trans h1) (not_le.mpr h3)

/-- The design space of the examples. -/
noncomputable def exBoundSpace : Box ℝ 1 := (exGP none).box

theorem exCreate_usual (noise : Option ℝ) : Usual (GPObj.create exBoundSpace none none noise) exWorld :=
  ⟨rfl, fun _ => by simp [GPObj.create, exBoundSpace, exGP], by simp [GPObj.create, defaultKernel, kernelOf, RBF.mk']; norm_num, cornerMinimizer_good, fun run h => by simp [GPObj.create] at h, by simp [exWorld], by simp [exWorld]⟩

theorem exHKCreate_trains : ∃ hk c t, (HKObj.create exBoundSpace none (4, 5) none).train ⟨exWorld, exWorld⟩ exX (fun i => exY i + c) exX exY = .ok (hk, t) := by
  obtain ⟨lf, lfFit, h1⟩ := (usual_trains_iff (exCreate_usual none) exX exY).mpr ⟨0, 2, exY_ne⟩
  have h2 := predictMean_eq (trained_of_train h1).1 exX
  obtain ⟨f, h2⟩ : ∃ f, predictMean lf lfFit exX = .ok f := ⟨_, h2⟩
  obtain ⟨c, hc⟩ : ∃ c, f 0 ≠ mean (fun i => exY i + c) := by
    by_contra hcon
    push Not at hcon
    have e0 := hcon 0
    have e1 := hcon 1
    rw [e0] at e1
    simp only [mean, Finset.sum_add_distrib] at e1
    norm_num at e1
  have key := C107_hk_trains_iff (HKObj.create exBoundSpace none (4, 5) none) ⟨exWorld, exWorld⟩ (exCreate_usual none) (fun _ => by simp [HKObj.create, exBoundSpace, exGP])
    (by simp [HKObj.create, kernelOf, RBF.mk']; norm_num) cornerMinimizer_good (fun run h => by simp [HKObj.create] at h) (by simp [exWorld]) (by simp [exWorld]) (by simp [HKObj.create]) exX (fun i => exY i + c) exX exY
  obtain ⟨hk, t, h⟩ := key.mpr ⟨⟨0, 2, exY_ne⟩, ⟨0, 2, fun h => exY_ne (add_right_cancel h)⟩, fun lf' lfFit' f' h1' h2' => by
    obtain ⟨rfl, rfl⟩ := Prod.mk.inj (Except.ok.inj (h1.symm.trans h1'))
    cases h2.symm.trans h2'
    exact ⟨0, hc⟩⟩
  exact ⟨hk, c, t, h⟩

theorem exCKCreate_trains : ∃ ck t, (CKObj.create exBoundSpace none (4, 5) (1 / 100, 10) none).train exCKWorld exX exY exX exY = .ok (ck, t) :=
  (C107_ck_trains_iff _ exCKWorld rfl (fun _ => by simp [CKObj.create, exBoundSpace, exGP]) (by simp [CKObj.create, kernelOf, RBF.mk']; norm_num) (by simp [CKObj.create, defaultKernel, kernelOf, RBF.mk']; norm_num)
    (by simp [CKObj.create]; norm_num) cornerMinimizer_good (fun run h => by simp [CKObj.create] at h) cornerMinimizer_good (fun run h => by simp [CKObj.create] at h) (by simp [exCKWorld, exWorld])
    (by simp [exCKWorld, exWorld]) (by simp [exCKWorld]) (by simp [exCKWorld]) (by simp [CKObj.create]) (by simp [CKObj.create]) exX exY exX exY (by norm_num)).mpr ⟨0, 2, exY_ne⟩

theorem exSKCreate_trains : ∃ sk t, (SKModel.create exBoundSpace none none none (4, 5) false .error (0, 100) none (some 0)).train exSKWorld exX (fun i => 2 * exY i) exX exY = .ok (sk, t) := by
  obtain ⟨o, t, h⟩ := (C107_sk_trains_iff (SKModel.create exBoundSpace none none none (4, 5) false .error (0, 100) none (some 0)).obj exSKWorld (exCreate_usual _) (exCreate_usual _) rfl exX (fun i => 2 * exY i) exX exY).mpr
    ⟨⟨0, 2, exY_ne⟩, fun lf' lfFit f h1 h2 => by
      rw [C34_interpolation _ _ _ _ rfl _ _ h1] at h2
      rw [← Except.ok.inj h2]
      refine ⟨0, 2, ?_⟩
      simp only [SKModel.create, SKObj.new, one_mul]
      have := exY_ne
      intro he
      exact this (by linarith)⟩
  exact ⟨_, _, Py.bind_ok.mpr ⟨_, h, rfl⟩⟩

/-- **C159 is false for the multi-fidelity models.** With `kernel_bound = [4, 5]` each of the three models trains, and the hyper-parameters of its low-fidelity model are outside the bounds; for scaled Kriging so are those
of the discrepancy model. -/
theorem C159_counterexample :
    (∃ hk, HKProgram StaysInside PopStaysInside (HKObj.create exBoundSpace none (4, 5) none) hk true ∧ ParamsWithin (4, 5) hk.kernel ∧ ¬ ParamsWithin (4, 5) hk.lf.kernel) ∧
    (∃ ck, CKProgram StaysInside PopStaysInside (CKObj.create exBoundSpace none (4, 5) (1 / 100, 10) none) ck true ∧ ParamsWithin (4, 5) ck.kernel ∧ ¬ ParamsWithin (4, 5) ck.lf.kernel) ∧
    ∃ sk, SKProgram StaysInside PopStaysInside (SKModel.create exBoundSpace none none none (4, 5) false .error (0, 100) none (some 0)) sk true ∧ ¬ ParamsWithin (4, 5) sk.obj.lf.kernel ∧
      ¬ ParamsWithin (4, 5) sk.obj.disc.kernel ∧ ¬ ParamsWithin (4, 5) sk.kernel := by
  refine ⟨?_, ?_, ?_⟩
  · obtain ⟨hk, c, t, h⟩ := exHKCreate_trains
    have hp := HKProgram.train (good := StaysInside) (goodPop := PopStaysInside) .start corner_staysInside corner_staysInside h
    obtain ⟨a, b⟩ := C159_hk_partial exBoundSpace none (4, 5) none nofun (by norm_num) hp rfl
    exact ⟨hk, hp, a, not_within_above one_pos b (by norm_num)⟩
  · obtain ⟨ck, t, h⟩ := exCKCreate_trains
    have hp := CKProgram.train (good := StaysInside) (goodPop := PopStaysInside) .start corner_staysInside corner_staysInside h
    obtain ⟨a, b⟩ := C159_ck_partial exBoundSpace none (4, 5) (1 / 100, 10) none nofun (by norm_num) (by norm_num) hp rfl
    exact ⟨ck, hp, a, not_within_above one_pos b (by norm_num)⟩
  · obtain ⟨sk, t, h⟩ := exSKCreate_trains
    have hp := SKProgram.train (good := StaysInside) (goodPop := PopStaysInside) .start corner_staysInside corner_staysInside (by simp [exSKWorld]) h
    obtain ⟨a, b, _⟩ := C159_sk_partial exBoundSpace none none none (4, 5) false .error (0, 100) none (some 0) nofun (by simp) hp
    obtain ⟨a1, a2⟩ := a rfl
    refine ⟨sk, hp, not_within_above one_pos a1 (by norm_num), not_within_above one_pos a2 (by norm_num), fun h => ?_⟩
    have hm : sk.kernel.param 0 ∈ sk.kernel.hyperparameters := (List.mem_ofFn' _ _).mpr ⟨_, rfl⟩
    have h1 := (h _ hm).1
    rw [b _ hm] at h1
    have h2 : (1 : ℝ) < (10 : ℝ) ^ (4 : ℝ) := Real.one_lt_rpow (by norm_num) (by norm_num)
    exact absurd h1 (not_le.mpr h2)

/-- The hypotheses of `C159_gp` are met: a model with the range `[4, 5]` trains. -/
example : ∃ gp, GPProgram StaysInside PopStaysInside (GPObj.create exBoundSpace (some (kernelOf (4, 5))) none (some 0)) gp true := by
  have hu : Usual (GPObj.create exBoundSpace (some (kernelOf (4, 5))) none (some 0)) exWorld :=
    ⟨rfl, fun _ => by simp [GPObj.create, exBoundSpace, exGP], by simp [GPObj.create, kernelOf, RBF.mk']; norm_num, cornerMinimizer_good, fun run h => by simp [GPObj.create] at h, by simp [exWorld], by simp [exWorld]⟩
  obtain ⟨gp, t, h⟩ := (usual_trains_iff hu exX exY).mpr ⟨0, 2, exY_ne⟩
  exact ⟨gp, .train .start corner_staysInside h⟩

end Mfpml.Props
