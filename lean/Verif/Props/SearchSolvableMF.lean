import Verif.Props.SearchSolvable
import Verif.Props.MFRuns

/-!
# The search problems of `AugmentedEI` and `ExtendedPI` (C118)
-/

set_option linter.unusedSectionVars false

open scoped BigOperators Matrix

namespace Mfpml.Props

open Mfpml.GP Mfpml.Spec Mfpml.BO Mfpml.Acq
open Mfpml.EA (Box)

variable {n m d q nh nl : ℕ}

/-- As `hasMinimum_of_cut`, with what is needed of the function in the box only. -/
theorem hasMinimum_of_cut_on {b : Box ℝ d} (hb : ∀ j, b.low j ≤ b.high j) {f : (Fin d → ℝ) → Py ℝ} {g s : (Fin d → ℝ) → ℝ} {ε : ℝ}
    (hf : ∀ x, InBounds b x → f x = .ok (-(if s x < ε then 0 else g x))) (hg : ContinuousOn g {x | InBounds b x}) (hs : Continuous s) : HasMinimum b f := by
  have hA : IsCompact ({x | InBounds b x} ∩ {x | ε ≤ s x}) := (isCompact_box b).inter_right (isClosed_le continuous_const hs)
  have hval : ∀ x, InBounds b x → s x < ε → f x = .ok 0 := fun x hx h => by rw [hf x hx, if_pos h, neg_zero]
  have hval' : ∀ x, InBounds b x → ε ≤ s x → f x = .ok (-g x) := fun x hx h => by rw [hf x hx, if_neg (not_lt.mpr h)]
  by_cases hcut : ∃ x, InBounds b x ∧ s x < ε
  · obtain ⟨x0, hx0, hs0⟩ := hcut
    by_cases hneg : ∃ x, InBounds b x ∧ ε ≤ s x ∧ -g x < 0
    · obtain ⟨x1, hx1, hs1, hn⟩ := hneg
      obtain ⟨x, hx, hmin⟩ := hA.exists_isMinOn ⟨x1, hx1, hs1⟩ (hg.neg.mono Set.inter_subset_left)
      refine ⟨x, -g x, hx.1, hval' x hx.1 hx.2, fun x' hx' => ?_⟩
      rcases lt_or_ge (s x') ε with h | h
      · exact ⟨0, hval x' hx' h, (hmin ⟨hx1, hs1⟩).trans hn.le⟩
      · exact ⟨_, hval' x' hx' h, hmin ⟨hx', h⟩⟩
    · refine ⟨x0, 0, hx0, hval x0 hx0 hs0, fun x' hx' => ?_⟩
      rcases lt_or_ge (s x') ε with h | h
      · exact ⟨0, hval x' hx' h, le_rfl⟩
      · exact ⟨_, hval' x' hx' h, le_of_not_gt fun hn => hneg ⟨x', hx', h, hn⟩⟩
  · have hall : ∀ x, InBounds b x → ε ≤ s x := fun x hx => le_of_not_gt fun h => hcut ⟨x, hx, h⟩
    obtain ⟨x, hx, hmin⟩ := (isCompact_box b).exists_isMinOn (box_nonempty hb) hg.neg
    exact ⟨x, -g x, hx, hval' x hx (hall x hx), fun x' hx' => ⟨_, hval' x' hx' (hall x' hx'), hmin hx'⟩⟩

/-- The correlation that `AugmentedEI` and `ExtendedPI` multiply with: a continuous function in the box, if nothing is divided by zero there. -/
theorem fidelityCorr_continuous {b : Box ℝ d} {s : MFSurr d} (hc : ContinuousRows s.predictStd) (hl : ContinuousRows s.predictLfStd) (hnn : MFNonneg s) {fid : ℤ}
    (hfid : fid = 0 ∨ fid = 1 ∧ Separated s b) :
    ∃ c : (Fin d → ℝ) → ℝ, ContinuousOn c {x | InBounds b x} ∧ ∀ x, InBounds b x → fidelityCorr s (onePoint x) fid = .ok (some fun _ => c x) := by
  obtain ⟨μ, σ, cμ, cσ, hp⟩ := hc
  obtain ⟨μl, σl, cμl, cσl, hpl⟩ := hl
  have hσ0 := nonneg_row hp hnn.1
  rcases hfid with rfl | ⟨rfl, hsep⟩
  · exact ⟨fun _ => 1, continuousOn_const, fun x _ => rfl⟩
  · have hne : ∀ x, InBounds b x → |μ 0 x - μl 0 x| + σ 0 x ≠ 0 := by
      intro x hx
      rcases hsep x hx _ _ _ _ (hp 1 (onePoint x)) (hpl 1 (onePoint x)) with h | h
      · have h1 : 0 < |μ 0 x - μl 0 x| := abs_pos.mpr (sub_ne_zero.mpr h)
        have := hσ0 x
        linarith
      · have h1 : 0 < σ 0 x := lt_of_le_of_ne (hσ0 x) (Ne.symm h)
        have := abs_nonneg (μ 0 x - μl 0 x)
        linarith
    refine ⟨fun x => σl 0 x / (|μ 0 x - μl 0 x| + σ 0 x), ?_, fun x hx => ?_⟩
    · exact (cσl 0).continuousOn.div (((cμ 0).sub (cμl 0)).abs.add (cσ 0)).continuousOn fun x hx => hne x hx
    · unfold fidelityCorr
      rw [if_neg (by norm_num), if_pos rfl]
      refine Py.bind_ok.mpr ⟨_, hp 1 _, Py.bind_ok.mpr ⟨_, hpl 1 _, ?_⟩⟩
      have hall : ∀ j : Fin 1, |μ j (onePoint x j) - μl j (onePoint x j)| + σ j (onePoint x j) ≠ 0 := by
        intro j
        rw [Fin.fin_one_eq_zero j]
        exact hne x hx
      dsimp only
      rw [if_pos hall]
      congr 2
      funext j
      rw [Fin.fin_one_eq_zero j]
      rfl

theorem effectiveBest_exists {b : Box ℝ d} {s : MFSurr d} (hs : Responsive s b) : ∃ xb, effectiveBest s = .ok xb := by
  obtain ⟨⟨μ, σ⟩, e⟩ := hs.std _ (Fin.append s.sampleH s.sampleL)
  have hpos := hs.size
  have hne : (List.ofFn fun j => μ j + 1 * σ j) ≠ [] := by
    intro hc
    have := congrArg List.length hc
    simp at this
    omega
  obtain ⟨i, hi⟩ := npArgmin_succeeds hne
  obtain ⟨m, hm⟩ := npMin_succeeds hne
  have hlt := (List.getElem?_eq_some_iff.mp (npArgmin_at hm hi)).1
  have hlt' : i < (List.ofFn (Fin.append s.sampleH s.sampleL)).length := by simpa using hlt
  exact ⟨_, Py.bind_ok.mpr ⟨_, e, Py.bind_ok.mpr ⟨_, hi, npRow_ok.mpr (List.getElem?_eq_getElem hlt')⟩⟩⟩

theorem max_eps_ne (a : ℝ) : max a floatEps ≠ 0 := (lt_of_lt_of_le floatEps_pos (le_max_right _ _)).ne'

/-- C118 (`AugmentedEI`). For a surrogate that answers and whose predictions are continuous, what `AugmentedEI` searches for the high fidelity has a minimum in the domain, and so has what it searches for the
low fidelity if nothing is divided by zero there. -/
theorem C118_aei_partial {b : Box ℝ d} (hb : ∀ j, b.low j ≤ b.high j) {s : MFSurr d} (hs : Responsive s b) (hc : ContinuousRows s.predictStd) (hl : ContinuousRows s.predictLfStd) {fid : ℤ}
    (hfid : fid = 0 ∨ fid = 1 ∧ Separated s b) (costRatio : ℝ) : HasMinimum b (single (aeiEval s costRatio fid)) := by
  obtain ⟨c, cc, hcorr⟩ := fidelityCorr_continuous hc hl hs.nonneg hfid
  obtain ⟨μ, σ, cμ, cσ, hp⟩ := hc
  obtain ⟨xb, hxb⟩ := effectiveBest_exists hs
  obtain ⟨fm, hfm⟩ := hs.mean 1 (onePoint xb)
  have h1 : Continuous fun x => (fm 0 - μ 0 x) / max (σ 0 x) floatEps := (continuous_const.sub (cμ 0)).div ((cσ 0).max continuous_const) fun x => max_eps_ne _
  refine hasMinimum_of_cut_on hb (s := σ 0) (ε := floatEps)
    (g := fun x => ((fm 0 - μ 0 x) * normCdf ((fm 0 - μ 0 x) / max (σ 0 x) floatEps) + σ 0 x * normPdf ((fm 0 - μ 0 x) / max (σ 0 x) floatEps)) * c x * if fid = 0 then 1 else costRatio)
    (fun x hx => single_ok ?_) ?_ (cσ 0)
  · refine Py.bind_ok.mpr ⟨_, hp 1 _, Py.bind_ok.mpr ⟨_, hxb, Py.bind_ok.mpr ⟨_, hfm, Py.bind_ok.mpr ⟨_, hcorr x hx, fun_one ?_⟩⟩⟩⟩
    show -(aeiFormula (fm 0) (μ 0 x) (σ 0 x) * c x * _) = _
    unfold aeiFormula
    by_cases h : σ 0 x < floatEps
    · rw [if_pos h, if_pos h]; ring
    · rw [if_neg h, if_neg h, max_eq_left (not_lt.mp h)]
  · exact ((((continuous_const.sub (cμ 0)).mul (normCdf_continuous.comp h1)).add ((cσ 0).mul (normPdf_continuous.comp h1))).continuousOn.mul cc).mul continuousOn_const

/-- The correlations of a point with the stored samples of a fidelity, as a continuous function of the point. -/
def ContinuousCorr (s : MFSurr d) : Prop :=
  (∃ R : (Fin d → ℝ) → Fin s.numH → ℝ, Continuous R ∧ ∀ x, s.evalCorr 1 s.numH (onePoint x) s.sampleH 0 = .ok (some (Matrix.of fun _ => R x))) ∧
  ∃ R : (Fin d → ℝ) → Fin s.numL → ℝ, Continuous R ∧ ∀ x, s.evalCorr 1 s.numL (onePoint x) s.sampleL 1 = .ok (some (Matrix.of fun _ => R x))

theorem pi_cut (fmin pre std c k p : ℝ) :
    -epiFormula fmin pre std * c * k * p = -(if std < floatEps then 0 else normCdf ((fmin - pre) / max std floatEps) * c * k * p) := by
  unfold epiFormula
  by_cases h : std < floatEps
  · rw [if_pos h, if_pos h]; ring
  · rw [if_neg h, if_neg h, max_eq_left (not_lt.mp h)]; ring

/-- C118 (`ExtendedPI`). The same for `ExtendedPI`, for every value of its incumbent. -/
theorem C118_epi_partial {b : Box ℝ d} (hb : ∀ j, b.low j ≤ b.high j) {s : MFSurr d} (hs : Responsive s b) (hc : ContinuousRows s.predictStd) (hl : ContinuousRows s.predictLfStd)
    (hcorr : ContinuousCorr s) {fid : ℤ} (hfid : fid = 0 ∨ fid = 1 ∧ Separated s b) (fmin costRatio : ℝ) :
    HasMinimum b (single fun x => do let v ← epiEval s fmin costRatio fid x; .ok (fun i => v i i)) := by
  obtain ⟨c, cc, hcr⟩ := fidelityCorr_continuous hc hl hs.nonneg hfid
  obtain ⟨μ, σ, cμ, cσ, hp⟩ := hc
  obtain ⟨⟨R0, cR0, hR0⟩, R1, cR1, hR1⟩ := hcorr
  have h1 : Continuous fun x => normCdf ((fmin - μ 0 x) / max (σ 0 x) floatEps) :=
    normCdf_continuous.comp ((continuous_const.sub (cμ 0)).div ((cσ 0).max continuous_const) fun x => max_eps_ne _)
  rcases hfid with rfl | ⟨rfl, _⟩
  · refine hasMinimum_of_cut_on hb (s := σ 0) (ε := floatEps) (g := fun x => normCdf ((fmin - μ 0 x) / max (σ 0 x) floatEps) * c x * 1 * ∏ k, R0 x k) (fun x hx => single_ok ?_) ?_ (cσ 0)
    · refine Py.bind_ok.mpr ⟨fun _ _ => -epiFormula fmin (μ 0 x) (σ 0 x) * c x * 1 * ∏ k, R0 x k, Py.bind_ok.mpr ⟨_, hp 1 _, Py.bind_ok.mpr ⟨_, hcr x hx, ?_⟩⟩, fun_one (pi_cut _ _ _ _ _ _)⟩
      dsimp only
      rw [if_pos rfl]
      refine Py.bind_ok.mpr ⟨_, hR0 x, ?_⟩
      dsimp only
      congr 1
      funext i j
      rw [Fin.fin_one_eq_zero i, Fin.fin_one_eq_zero j]
      rfl
    · exact ((h1.continuousOn.mul cc).mul continuousOn_const).mul (continuous_finsetProd _ fun k _ => (continuous_apply k).comp cR0).continuousOn
  · refine hasMinimum_of_cut_on hb (s := σ 0) (ε := floatEps) (g := fun x => normCdf ((fmin - μ 0 x) / max (σ 0 x) floatEps) * c x * costRatio * ∏ k, R1 x k) (fun x hx => single_ok ?_) ?_ (cσ 0)
    · refine Py.bind_ok.mpr ⟨fun _ _ => -epiFormula fmin (μ 0 x) (σ 0 x) * c x * costRatio * ∏ k, R1 x k, Py.bind_ok.mpr ⟨_, hp 1 _, Py.bind_ok.mpr ⟨_, hcr x hx, ?_⟩⟩, fun_one (pi_cut _ _ _ _ _ _)⟩
      dsimp only
      rw [if_neg (by norm_num)]
      refine Py.bind_ok.mpr ⟨_, hR1 x, ?_⟩
      dsimp only
      congr 1
      funext i j
      rw [Fin.fin_one_eq_zero i, Fin.fin_one_eq_zero j]
      rfl
    · exact ((h1.continuousOn.mul cc).mul continuousOn_const).mul (continuous_finsetProd _ fun k _ => (continuous_apply k).comp cR1).continuousOn

theorem continuous_kernelRow (param : Fin d → ℝ) (b : Box ℝ d) (Xs : Samples n d) :
    Continuous fun (x : Fin d → ℝ) (k : Fin n) => rbfMatrix param (fun _ : Fin 1 => normPt b x) Xs 0 k := by
  refine continuous_pi fun k => ?_
  unfold rbfMatrix
  have h : Continuous fun x => rbfDist param (normPt b x) (Xs k) := by
    have : Continuous fun z => rbfDist param z (Xs k) := by unfold rbfDist; fun_prop
    exact this.comp (continuous_normPt b)
  exact (Real.continuous_exp.comp h.neg).add continuous_const

theorem kernel_oneRow (param : Fin d → ℝ) (xs : Samples 1 d) (Xs : Samples n d) : rbfMatrix param xs Xs = Matrix.of fun _ => rbfMatrix param xs Xs 0 := by
  funext i
  rw [Fin.fin_one_eq_zero i]
  rfl

/-- C118 (hierarchical Kriging, `AugmentedEI` and `ExtendedPI`). For a trained model with a continuous trend, the functions that the two acquisitions search have a minimum in the design space: the predicted mean (whose minimum is
the incumbent of `ExtendedPI`), the acquisition for the high fidelity and, if nothing is divided by zero, the acquisition for the low fidelity. -/
theorem C118_hk_aei_epi_partial (hk : HKObj d q) (w : MFWorld d) (Xh : Samples nh d) (yh : Fin nh → ℝ) (Xl : Samples nl d) (yl : Fin nl → ℝ) (hk' : HKObj d q) (t : HKFit nh nl d q)
    (h : hk.train w Xh yh Xl yl = .ok (hk', t)) (hr : ContinuousBasis hk.lf.regr) (hb : ∀ j, hk.box.low j ≤ hk.box.high j) :
    HasMinimum hk.box (single ((MFSurr.ofHK hk' t).predict 1)) ∧
    ∀ fid : ℤ, (fid = 0 ∨ fid = 1 ∧ Separated (MFSurr.ofHK hk' t) hk.box) → (∀ costRatio, HasMinimum hk.box (single (aeiEval (MFSurr.ofHK hk' t) costRatio fid))) ∧
      ∀ fmin costRatio, HasMinimum hk.box (single fun x => do let v ← epiEval (MFSurr.ofHK hk' t) fmin costRatio fid x; .ok (fun i => v i i)) := by
  obtain ⟨hT, _, _, _, hlf, _⟩ := hkTrained_of_train h
  have hs := responsive_hk h
  have hc := C117_hk_continuous hk w Xh yh Xl yl hk' t h hr
  have hl := C117_gp_continuous _ _ _ _ _ _ hlf hr
  refine ⟨?_, fun fid hfid => ⟨fun cr => C118_aei_partial hb hs hc hl hfid cr, fun fmin cr => C118_epi_partial hb hs hc hl ⟨?_, ?_⟩ hfid fmin cr⟩⟩
  · obtain ⟨μ, σ, cμ, _, hp⟩ := hc
    exact hasMinimum_of_continuous hb (g := μ 0) (fun x => single_ok ((C37_hk _ _ _ _ _ (hp 1 (onePoint x))).trans (fun_one rfl))) (cμ 0)
  · exact ⟨fun x => rbfMatrix hk'.kernel.param (fun _ : Fin 1 => normPt hk'.box x) (fun i => normPt hk'.box (t.Xh i)) 0, continuous_kernelRow _ _ _, fun x =>
      Py.bind_ok.mpr ⟨_, normalizeInput_eq (onePoint x) hT.range, Py.bind_ok.mpr ⟨_, normalizeInput_eq t.Xh hT.range, congrArg (fun M => Except.ok (some M)) (kernel_oneRow _ _ _)⟩⟩⟩
  · exact ⟨fun x => rbfMatrix hk'.lf.kernel.param (fun _ : Fin 1 => normPt hk'.box x) (fun i => normPt hk'.box (t.lfFit.X i)) 0, continuous_kernelRow _ _ _, fun x =>
      Py.bind_ok.mpr ⟨_, normalizeInput_eq (onePoint x) hT.range, Py.bind_ok.mpr ⟨_, normalizeInput_eq t.lfFit.X hT.range, congrArg (fun M => Except.ok (some M)) (kernel_oneRow _ _ _)⟩⟩⟩

/-- C118 (scaled Kriging, `AugmentedEI` and `ExtendedPI`). -/
theorem C118_sk_aei_epi_partial {ql qd : ℕ} (sk : SKObj d ql qd) (w : SKWorld d) (Xh : Samples nh d) (yh : Fin nh → ℝ) (Xl : Samples nl d) (yl : Fin nl → ℝ)
    (sk' : SKObj d ql qd) (t : SKFit nh nl d ql qd) (h : sk.train w Xh yh Xl yl = .ok (sk', t)) (hl : ContinuousBasis sk.lf.regr) (hd : ContinuousBasis sk.disc.regr)
    (hb : ∀ j, sk.box.low j < sk.box.high j) :
    HasMinimum sk.box (single ((MFSurr.ofSK sk' t).predict 1)) ∧
    ∀ fid : ℤ, (fid = 0 ∨ fid = 1 ∧ Separated (MFSurr.ofSK sk' t) sk.box) → (∀ costRatio, HasMinimum sk.box (single (aeiEval (MFSurr.ofSK sk' t) costRatio fid))) ∧
      ∀ fmin costRatio, HasMinimum sk.box (single fun x => do let v ← epiEval (MFSurr.ofSK sk' t) fmin costRatio fid x; .ok (fun i => v i i)) := by
  have hs := responsive_sk hb h
  have hbox : sk'.box = sk.box := Except.ok.inj hs.bound
  have hrange : ∀ j, sk'.box.high j - sk'.box.low j ≠ 0 := fun j => by rw [hbox]; exact (sub_pos.mpr (hb j)).ne'
  obtain ⟨f, disc, h1, _⟩ := skTrain_ok h
  obtain ⟨hc, μ, cμ, hμ⟩ := C117_sk_continuous sk w Xh yh Xl yl sk' t h hl hd
  have hlc := C117_gp_continuous _ _ _ _ _ _ h1 hl
  have hb' : ∀ j, sk.box.low j ≤ sk.box.high j := fun j => (hb j).le
  refine ⟨?_, fun fid hfid => ⟨fun cr => C118_aei_partial hb' hs hc hlc hfid cr, fun fmin cr => C118_epi_partial hb' hs hc hlc ⟨?_, ?_⟩ hfid fmin cr⟩⟩
  · exact hasMinimum_of_continuous hb' (g := μ 0) (fun x => single_ok ((hμ 1 (onePoint x)).trans (fun_one rfl))) (cμ 0)
  · exact ⟨fun x => rbfMatrix (fun _ => 1) (fun _ : Fin 1 => normPt sk'.box x) (fun i => normPt sk'.box (t.Xh i)) 0, continuous_kernelRow _ _ _, fun x =>
      Py.bind_ok.mpr ⟨_, normalizeInput_eq (onePoint x) hrange, Py.bind_ok.mpr ⟨_, normalizeInput_eq t.Xh hrange, congrArg (fun M => Except.ok (some M)) (kernel_oneRow _ _ _)⟩⟩⟩
  · exact ⟨fun x => rbfMatrix sk'.lf.kernel.param (fun _ : Fin 1 => normPt sk'.box x) (fun i => normPt sk'.box (t.lfFit.X i)) 0, continuous_kernelRow _ _ _, fun x =>
      Py.bind_ok.mpr ⟨_, normalizeInput_eq (onePoint x) hrange, Py.bind_ok.mpr ⟨_, normalizeInput_eq t.lfFit.X hrange, congrArg (fun M => Except.ok (some M)) (kernel_oneRow _ _ _)⟩⟩⟩

/-- What goes wrong without that side condition. If both fidelities are trained without noise, their first samples are the same point and the responses there are equal, then the low-fidelity acquisition of
`AugmentedEI` and `ExtendedPI` is not a number at that point (0 is divided by 0). -/
theorem C118_hk_first_sample (hk : HKObj d q) (w : MFWorld d) (Xh : Samples (nh + 1) d) (yh : Fin (nh + 1) → ℝ) (Xl : Samples (nl + 1) d) (yl : Fin (nl + 1) → ℝ) (hk' : HKObj d q)
    (t : HKFit (nh + 1) (nl + 1) d q) (h : hk.train w Xh yh Xl yl = .ok (hk', t)) (hr : ContinuousBasis hk.lf.regr) (hn : hk.noise = some 0) (hnl : hk.lf.noise = some 0)
    (hx : Xh 0 = Xl 0) (hy : yh 0 = yl 0) (fmin costRatio : ℝ) :
    single (aeiEval (MFSurr.ofHK hk' t) costRatio 1) (Xh 0) = .error .nonFinite ∧
    single (fun x => do let v ← epiEval (MFSurr.ofHK hk' t) fmin costRatio 1 x; .ok (fun i => v i i)) (Xh 0) = .error .nonFinite := by
  obtain ⟨_, _, _, _, hlf, _⟩ := hkTrained_of_train h
  have hs := responsive_hk h
  obtain ⟨μ, σ, _, _, hp⟩ := C117_hk_continuous hk w Xh yh Xl yl hk' t h hr
  obtain ⟨μl, σl, _, _, hpl⟩ := C117_gp_continuous _ _ _ _ _ _ hlf hr
  have e1 : μ 0 (Xh 0) = yh 0 := by
    have := C41_hk_interpolates hk w Xh yh Xl yl hn hk' t h
    rw [C37_hk _ _ _ _ _ (hp _ Xh)] at this
    exact congrFun (Except.ok.inj this) 0
  have e2 : σ 0 (Xh 0) = 0 := by
    obtain ⟨μ', σ', h1, _, h2⟩ := (C42_hk_uncertainty hk w Xh yh Xl yl hk' t h).2 hn
    exact (congrFun (Prod.mk.inj (Except.ok.inj ((hp _ Xh).symm.trans h1))).2 0).trans (h2 0)
  have e3 : μl 0 (Xh 0) = yl 0 := by
    have := C34_interpolation _ _ _ _ hnl _ _ hlf
    rw [C37_gp _ _ _ _ _ (hpl _ Xl)] at this
    rw [hx]
    exact congrFun (Except.ok.inj this) 0
  have hcorr : fidelityCorr (MFSurr.ofHK hk' t) (onePoint (Xh 0)) 1 = .error .nonFinite := by
    unfold fidelityCorr
    rw [if_neg (by norm_num), if_pos rfl]
    refine Py.bind_error.mpr (Or.inr ⟨_, hp 1 _, Py.bind_error.mpr (Or.inr ⟨_, hpl 1 _, ?_⟩)⟩)
    dsimp only
    rw [if_neg]
    intro hall
    refine hall 0 ?_
    show |μ 0 (Xh 0) - μl 0 (Xh 0)| + σ 0 (Xh 0) = 0
    rw [e1, e2, e3, hy, sub_self, abs_zero, add_zero]
  obtain ⟨xb, hxb⟩ := effectiveBest_exists hs
  obtain ⟨fm, hfm⟩ := hs.mean 1 (onePoint xb)
  constructor
  · exact Py.bind_error.mpr (Or.inl (Py.bind_error.mpr (Or.inr ⟨_, hp 1 _, Py.bind_error.mpr (Or.inr ⟨_, hxb, Py.bind_error.mpr (Or.inr ⟨_, hfm, Py.bind_error.mpr (Or.inl hcorr)⟩)⟩)⟩)))
  · exact Py.bind_error.mpr (Or.inl (Py.bind_error.mpr (Or.inl (Py.bind_error.mpr (Or.inr ⟨_, hp 1 _, Py.bind_error.mpr (Or.inl hcorr)⟩)))))

/-- C118 is false of `AugmentedEI` and `ExtendedPI` for the low fidelity: on a trained hierarchical Kriging model their objectives have no value at a point of the design space. -/
theorem C118_aei_epi_counterexample : ∃ hk' t x, (exHK (some 0)).train ⟨exWorld, exWorld⟩ (fun i _ => ![0, 1, 2] i : Samples 3 1) ![0, 1, 5] (fun i _ => ![0, 1, 2] i : Samples 3 1) ![0, 1, 2] = .ok (hk', t) ∧
    InBounds (exHK (some 0)).box x ∧ (∀ costRatio, ¬HasMinimum (exHK (some 0)).box (single (aeiEval (MFSurr.ofHK hk' t) costRatio 1))) ∧
    ∀ fmin costRatio, ¬HasMinimum (exHK (some 0)).box (single fun x => do let v ← epiEval (MFSurr.ofHK hk' t) fmin costRatio 1 x; .ok (fun i => v i i)) := by
  obtain ⟨hk', t, h⟩ := exHK_trains
  have hx : InBounds (exHK (some 0)).box (fun _ : Fin 1 => (0 : ℝ)) := fun j => by simp [exHK, exGP]
  have key := C118_hk_first_sample _ _ _ _ _ _ _ _ h C117_bases.1 rfl rfl rfl (by simp)
  refine ⟨hk', t, _, h, hx, fun cr hm => ?_, fun fmin cr hm => ?_⟩
  · obtain ⟨x, v, _, _, hall⟩ := hm
    obtain ⟨v', hv', _⟩ := hall _ hx
    cases (key 0 cr).1.symm.trans hv'
  · obtain ⟨x, v, _, _, hall⟩ := hm
    obtain ⟨v', hv', _⟩ := hall _ hx
    cases (key fmin cr).2.symm.trans hv'

/-- With noise the side condition is met (the model of `Verif/Props/MFRuns.lean`), so both acquisitions have minima for both fidelities. -/
example : ∃ hk t, HKObj.train { exHK (some 0) with noise := some 1 } ⟨exWorld, exWorld⟩ (fun i _ => ![0, 1, 2] i : Samples 3 1) ![0, 1, 5] (fun i _ => ![0, 1, 2] i : Samples 3 1) ![0, 1, 2] = .ok (hk, t) ∧
    HasMinimum (exHK (some 0)).box (single (aeiEval (MFSurr.ofHK hk t) 2 1)) := by
  obtain ⟨lf', lfFit, hlf⟩ := exGP_trains (some 0) (fun i _ => ![0, 1, 2] i : Samples 3 1) ![0, 1, 2] 0 1 (by norm_num)
  have hf := C34_interpolation _ _ _ _ rfl _ _ hlf
  have hmean : GP.mean (![0, 1, 5] : Fin 3 → ℝ) = 2 := by
    unfold GP.mean; rw [Fin.sum_univ_three]; simp; norm_num
  obtain ⟨hk, t, htr⟩ := C41_hk_train_succeeds { exHK (some 0) with noise := some 1 } ⟨exWorld, exWorld⟩ (fun i _ => ![0, 1, 2] i : Samples 3 1) ![0, 1, 5]
    (fun i _ => ![0, 1, 2] i : Samples 3 1) ![0, 1, 2] (fun _ => by simp [exHK, exGP]) (by simp [exHK, RBF.mk']; norm_num)
    cornerMinimizer_good (fun run h => by simp [exHK] at h) (by simp [exWorld]) (by simp [exWorld]) 0 1 (by norm_num) lf' lfFit hlf _ hf 0 (by rw [hmean]; simp) (fun h => by simp at h)
  exact ⟨hk, t, htr, ((C118_hk_aei_epi_partial _ _ _ _ _ _ _ _ htr C117_bases.1 (fun _ => by simp [exHK, exGP])).2 1 (Or.inr ⟨rfl, separated_of_noise htr rfl one_ne_zero _⟩)).1 2⟩

end Mfpml.Props
