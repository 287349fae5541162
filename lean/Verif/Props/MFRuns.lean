import Verif.Props.BOAssembled
import Verif.Props.MFTrains
import Verif.Props.BestPrediction

/-!
# C80 and C111: which combinations of surrogate and acquisition multi-fidelity Bayesian optimisation works with
-/

namespace Mfpml.Props

open Mfpml Mfpml.Acq Mfpml.GP Mfpml.Spec Mfpml.BO
open Mfpml.EA (Box)

variable {d : ℕ}

/-- A `query` that returns, for every cost ratio, incumbent and random state, a point of the design space and one of the two fidelities. -/
def Answers {W : Type} (q : MFQuery W d) (s : MFSurr d) (b : Box ℝ d) : Prop :=
  ∀ cr fmin w, ∃ x fid w', q s cr fmin w = .ok ((x, fid), w') ∧ InBounds b x ∧ (fid = 0 ∨ fid = 1)

/-- Nowhere in the design space do the two fidelities have the same predicted mean while the high-fidelity standard deviation is zero (otherwise `AugmentedEI` and `ExtendedPI` divide by zero). -/
def Separated (s : MFSurr d) (b : Box ℝ d) : Prop :=
  ∀ x, InBounds b x → ∀ μh σh μl σl, s.predictStd 1 (onePoint x) = .ok (μh, σh) → s.predictLfStd 1 (onePoint x) = .ok (μl, σl) → μh 0 ≠ μl 0 ∨ σh 0 ≠ 0

/-! ## Lemmas about any surrogate -/

/-- The methods the acquisitions use return. -/
structure Responsive (s : MFSurr d) (b : Box ℝ d) : Prop where
  bound : s.bound = .ok b
  mean : ∀ m X, ∃ μ, s.predict m X = .ok μ
  std : ∀ m X, ∃ r, s.predictStd m X = .ok r
  lf : ∀ m X, ∃ r, s.predictLfStd m X = .ok r
  nonneg : MFNonneg s
  size : 0 < s.numH + s.numL
  corr : ∀ m k (X : Samples m d) (X' : Samples k d) fid, fid = 0 ∨ fid = 1 → ∃ R, s.evalCorr m k X X' fid = .ok (some R)

theorem mfChoose_answers {W : Type} {de : DiffEvo W d} (hde : GoodSearch de) (ht : TotalSearch de) (hd : 0 < d) {b : Box ℝ d} (hb : ∀ j, b.low j ≤ b.high j)
    {evalAt : ℤ → (Fin d → ℝ) → Py ℝ} (h0 : ∀ x, InBounds b x → ∃ v, evalAt 0 x = .ok v) (h1 : ∀ x, InBounds b x → ∃ v, evalAt 1 x = .ok v) (w : W) :
    ∃ x fid w', mfChoose evalAt none de (.ok b) w = .ok ((x, fid), w') ∧ InBounds b x ∧ (fid = 0 ∨ fid = 1) := by
  obtain ⟨⟨⟨x0, v0⟩, w0⟩, e0⟩ := ht _ b w hd hb h0
  obtain ⟨⟨⟨x1, v1⟩, w1⟩, e1⟩ := ht _ b w0 hd hb h1
  have i0 := (hde _ _ _ _ _ _ e0).1
  have i1 := (hde _ _ _ _ _ _ e1).1
  by_cases hle : v0 ≤ v1
  · refine ⟨x0, 0, w1, ?_, i0, Or.inl rfl⟩
    refine Py.bind_ok.mpr ⟨_, rfl, Py.bind_ok.mpr ⟨_, e0, Py.bind_ok.mpr ⟨_, e1, ?_⟩⟩⟩
    simp only [if_pos hle]
  · refine ⟨x1, 1, w1, ?_, i1, Or.inr rfl⟩
    refine Py.bind_ok.mpr ⟨_, rfl, Py.bind_ok.mpr ⟨_, e0, Py.bind_ok.mpr ⟨_, e1, ?_⟩⟩⟩
    simp only [if_neg hle]

theorem vflcb_answers {W : Type} {de : DiffEvo W d} (hde : GoodSearch de) (ht : TotalSearch de) (hd : 0 < d) {b : Box ℝ d} (hb : ∀ j, b.low j ≤ b.high j) {s : MFSurr d}
    (hs : Responsive s b) (κ : ℝ × ℝ) : Answers (vflcbQuery κ none de) s b := by
  intro cr fmin w
  have hev : ∀ fid : ℤ, fid = 0 ∨ fid = 1 → ∀ x, ∃ v, single (vflcbEval κ s cr fid) x = .ok v := by
    intro fid hfid x
    obtain ⟨⟨μ, σ⟩, e⟩ := hs.std 1 (onePoint x)
    obtain ⟨⟨μl, σl⟩, el⟩ := hs.lf 1 (onePoint x)
    rcases hfid with rfl | rfl
    · exact ⟨_, single_ok.mpr ⟨_, Py.bind_ok.mpr ⟨_, e, Py.bind_ok.mpr ⟨_, el, rfl⟩⟩, rfl⟩⟩
    · exact ⟨_, single_ok.mpr ⟨_, Py.bind_ok.mpr ⟨_, e, Py.bind_ok.mpr ⟨_, el, rfl⟩⟩, rfl⟩⟩
  unfold vflcbQuery
  rw [hs.bound]
  exact mfChoose_answers hde ht hd hb (fun x _ => hev 0 (Or.inl rfl) x) (fun x _ => hev 1 (Or.inr rfl) x) w

theorem vfei_answers {W : Type} {de : DiffEvo W d} (hde : GoodSearch de) (ht : TotalSearch de) (hd : 0 < d) {b : Box ℝ d} (hb : ∀ j, b.low j ≤ b.high j) {s : MFSurr d}
    (hs : Responsive s b) (hk : s.isHK = true) (hbeta : ∃ β, s.beta = .ok β) : Answers (vfeiQuery none de) s b := by
  intro cr fmin w
  obtain ⟨β, hβ⟩ := hbeta
  have hnk : ¬s.isHK = false := by rw [hk]; simp
  have hev : ∀ fid : ℤ, fid = 0 ∨ fid = 1 → ∀ x, ∃ v, single (vfeiEval fmin s fid) x = .ok v := by
    intro fid hfid x
    obtain ⟨⟨μ, σ⟩, e⟩ := hs.std 1 (onePoint x)
    obtain ⟨⟨μl, σl⟩, el⟩ := hs.lf 1 (onePoint x)
    rcases hfid with rfl | rfl
    · refine ⟨_, single_ok.mpr ⟨fun j => -vfeiFormula fmin (μ j) (σ j) (σ j), ?_, rfl⟩⟩
      unfold vfeiEval
      rw [if_neg hnk]
      exact Py.bind_ok.mpr ⟨_, e, rfl⟩
    · refine ⟨_, single_ok.mpr ⟨fun j => -vfeiFormula fmin (μ j) (σ j) (β * σl j), ?_, rfl⟩⟩
      unfold vfeiEval
      rw [if_neg hnk]
      exact Py.bind_ok.mpr ⟨_, e, Py.bind_ok.mpr ⟨_, el, Py.bind_ok.mpr ⟨_, hβ, rfl⟩⟩⟩
  unfold vfeiQuery
  rw [hs.bound]
  exact mfChoose_answers hde ht hd hb (fun x _ => hev 0 (Or.inl rfl) x) (fun x _ => hev 1 (Or.inr rfl) x) w

theorem fidelityCorr_total {b : Box ℝ d} {s : MFSurr d} (hs : Responsive s b) (hsep : Separated s b) {x : Fin d → ℝ} (hx : InBounds b x) {fid : ℤ} (hfid : fid = 0 ∨ fid = 1) :
    ∃ c, fidelityCorr s (onePoint x) fid = .ok (some c) := by
  rcases hfid with rfl | rfl
  · exact ⟨_, rfl⟩
  · obtain ⟨⟨μ, σ⟩, e⟩ := hs.std 1 (onePoint x)
    obtain ⟨⟨μl, σl⟩, el⟩ := hs.lf 1 (onePoint x)
    have hne : ∀ j, |μ j - μl j| + σ j ≠ 0 := by
      intro j
      have hj : j = 0 := Subsingleton.elim _ _
      subst hj
      have h0 := hs.nonneg.1 _ _ _ _ e 0
      rcases hsep x hx μ σ μl σl e el with h | h
      · have : 0 < |μ 0 - μl 0| := abs_pos.mpr (sub_ne_zero.mpr h)
        linarith
      · have : 0 < σ 0 := lt_of_le_of_ne h0 (Ne.symm h)
        have := abs_nonneg (μ 0 - μl 0)
        linarith
    refine ⟨fun j => σl j / (|μ j - μl j| + σ j), ?_⟩
    unfold fidelityCorr
    rw [if_neg (by norm_num), if_pos rfl]
    refine Py.bind_ok.mpr ⟨_, e, Py.bind_ok.mpr ⟨_, el, ?_⟩⟩
    simp only [if_pos hne]

theorem aei_answers {W : Type} {de : DiffEvo W d} (hde : GoodSearch de) (ht : TotalSearch de) (hd : 0 < d) {b : Box ℝ d} (hb : ∀ j, b.low j ≤ b.high j) {s : MFSurr d}
    (hs : Responsive s b) (hsep : Separated s b) : Answers (aeiQuery none de) s b := by
  intro cr fmin w
  have hbest : ∃ xb, effectiveBest s = .ok xb := by
    obtain ⟨⟨μ, σ⟩, e⟩ := hs.std _ (Fin.append s.sampleH s.sampleL)
    have hpos := hs.size
    obtain ⟨i, hi⟩ := npArgmin_succeeds (l := List.ofFn fun j => μ j + 1 * σ j) (by
      intro hc
      have := congrArg List.length hc
      simp at this
      omega)
    obtain ⟨m, hm⟩ := npMin_succeeds (l := List.ofFn fun j => μ j + 1 * σ j) (by
      intro hc
      have := congrArg List.length hc
      simp at this
      omega)
    have hlt := (List.getElem?_eq_some_iff.mp (npArgmin_at hm hi)).1
    have hlt' : i < (List.ofFn (Fin.append s.sampleH s.sampleL)).length := by simpa using hlt
    exact ⟨_, Py.bind_ok.mpr ⟨_, e, Py.bind_ok.mpr ⟨_, hi, npRow_ok.mpr (List.getElem?_eq_getElem hlt')⟩⟩⟩
  obtain ⟨xb, hxb⟩ := hbest
  obtain ⟨fm, hfm⟩ := hs.mean 1 (onePoint xb)
  have hev : ∀ fid : ℤ, fid = 0 ∨ fid = 1 → ∀ x, InBounds b x → ∃ v, single (aeiEval s cr fid) x = .ok v := by
    intro fid hfid x hx
    obtain ⟨⟨μ, σ⟩, e⟩ := hs.std 1 (onePoint x)
    obtain ⟨c, hc⟩ := fidelityCorr_total hs hsep hx hfid
    refine ⟨_, single_ok.mpr ⟨_, Py.bind_ok.mpr ⟨_, e, Py.bind_ok.mpr ⟨_, hxb, Py.bind_ok.mpr ⟨_, hfm, Py.bind_ok.mpr ⟨_, hc, rfl⟩⟩⟩⟩, rfl⟩⟩
  unfold aeiQuery
  rw [hs.bound]
  exact mfChoose_answers hde ht hd hb (evalAt := fun fid => single (aeiEval s cr fid)) (hev 0 (Or.inl rfl)) (hev 1 (Or.inr rfl)) w

theorem epi_answers {W : Type} {de : DiffEvo W d} (hde : GoodSearch de) (ht : TotalSearch de) (hd : 0 < d) {b : Box ℝ d} (hb : ∀ j, b.low j ≤ b.high j) {s : MFSurr d}
    (hs : Responsive s b) (hsep : Separated s b) : Answers (epiQuery none de) s b := by
  intro cr fmin w
  obtain ⟨⟨pm, w1⟩, hpm⟩ := ht (single (s.predict 1)) b w hd hb fun x _ => by
    obtain ⟨μ, e⟩ := hs.mean 1 (onePoint x)
    exact ⟨_, single_ok.mpr ⟨_, e, rfl⟩⟩
  have hev : ∀ fid : ℤ, fid = 0 ∨ fid = 1 → ∀ x, InBounds b x → ∃ v, single (fun x => do let v ← epiEval s pm.2 cr fid x; .ok (fun i => v i i)) x = .ok v := by
    intro fid hfid x hx
    obtain ⟨⟨μ, σ⟩, e⟩ := hs.std 1 (onePoint x)
    obtain ⟨c, hc⟩ := fidelityCorr_total hs hsep hx hfid
    rcases hfid with rfl | rfl
    · obtain ⟨R, hR⟩ := hs.corr 1 s.numH (onePoint x) s.sampleH 0 (Or.inl rfl)
      refine ⟨_, single_ok.mpr ⟨_, Py.bind_ok.mpr ⟨fun i j => -epiFormula pm.2 (μ i) (σ i) * c i * 1 * ∏ k, R j k, Py.bind_ok.mpr ⟨_, e, Py.bind_ok.mpr ⟨_, hc, ?_⟩⟩, rfl⟩, rfl⟩⟩
      dsimp only
      rw [if_pos rfl]
      exact Py.bind_ok.mpr ⟨_, hR, rfl⟩
    · obtain ⟨R, hR⟩ := hs.corr 1 s.numL (onePoint x) s.sampleL 1 (Or.inr rfl)
      refine ⟨_, single_ok.mpr ⟨_, Py.bind_ok.mpr ⟨fun i j => -epiFormula pm.2 (μ i) (σ i) * c i * cr * ∏ k, R j k, Py.bind_ok.mpr ⟨_, e, Py.bind_ok.mpr ⟨_, hc, ?_⟩⟩, rfl⟩, rfl⟩⟩
      dsimp only
      rw [if_neg (by norm_num)]
      exact Py.bind_ok.mpr ⟨_, hR, rfl⟩
  obtain ⟨x, fid, w', h1, h2⟩ := mfChoose_answers hde ht hd hb
    (evalAt := fun fid => single (fun x => do let v ← epiEval s pm.2 cr fid x; .ok (fun i => v i i))) (hev 0 (Or.inl rfl)) (hev 1 (Or.inr rfl)) w1
  refine ⟨x, fid, w', ?_, h2⟩
  unfold epiQuery
  rw [hs.bound]
  exact Py.bind_ok.mpr ⟨_, rfl, Py.bind_ok.mpr ⟨_, hpm, h1⟩⟩

/-! ## The trained surrogates -/

theorem gp_std_total {n q m : ℕ} {gp gp' : GPObj d q} {w : World d} {X : Samples n d} {y : Fin n → ℝ} {t : GPFit n d q} (h : gp.train w X y = .ok (gp', t)) (Xnew : Samples m d) :
    ∃ r, GP.predictStd gp' t Xnew = .ok r := by
  obtain ⟨μ, σ, _, h2, _⟩ := C100_best_linear_unbiased gp w X y gp' t h Xnew
  exact ⟨_, h2⟩

theorem responsive_hk {nh nl q : ℕ} {hk : HKObj d q} {w : MFWorld d} {Xh : Samples nh d} {yh : Fin nh → ℝ} {Xl : Samples nl d} {yl : Fin nl → ℝ} {hk' : HKObj d q} {t : HKFit nh nl d q}
    (h : hk.train w Xh yh Xl yl = .ok (hk', t)) : Responsive (MFSurr.ofHK hk' t) hk.box := by
  obtain ⟨hT, hX, _, hbox, hlf, _⟩ := hkTrained_of_train h
  refine ⟨?_, ?_, ?_, ?_, ofHK_nonneg _ _, ?_, ?_⟩
  · show Except.ok hk'.box = Except.ok hk.box
    rw [hbox]
  · intro m X
    obtain ⟨_, _, μ, σ, _, _, h1, _⟩ := C100_hk_best_linear_unbiased hk w Xh yh Xl yl hk' t h X
    exact ⟨μ, h1⟩
  · intro m X
    obtain ⟨_, _, μ, σ, _, _, _, h1, _⟩ := C100_hk_best_linear_unbiased hk w Xh yh Xl yl hk' t h X
    exact ⟨_, h1⟩
  · exact fun m X => gp_std_total hlf X
  · show 0 < nh + nl
    rcases Nat.eq_zero_or_pos nl with rfl | hl
    · exfalso
      have := (trained_of_train hlf).1.stdpos
      rw [(trained_of_train hlf).2.2.2.2.2.2.2.1] at this
      simp [std] at this
    · omega
  · intro m k X X' fid hfid
    rcases hfid with rfl | rfl
    · exact ⟨_, Py.bind_ok.mpr ⟨_, normalizeInput_eq X hT.range, Py.bind_ok.mpr ⟨_, normalizeInput_eq X' hT.range, rfl⟩⟩⟩
    · exact ⟨_, Py.bind_ok.mpr ⟨_, normalizeInput_eq X hT.range, Py.bind_ok.mpr ⟨_, normalizeInput_eq X' hT.range, rfl⟩⟩⟩

theorem responsive_sk {nh nl ql qd : ℕ} {sk : SKObj d ql qd} {w : SKWorld d} {Xh : Samples nh d} {yh : Fin nh → ℝ} {Xl : Samples nl d} {yl : Fin nl → ℝ} {sk' : SKObj d ql qd}
    {t : SKFit nh nl d ql qd} (hb : ∀ j, sk.box.low j < sk.box.high j) (h : sk.train w Xh yh Xl yl = .ok (sk', t)) : Responsive (MFSurr.ofSK sk' t) sk.box := by
  have hbox : sk'.box = sk.box := by
    unfold SKObj.train at h
    obtain ⟨_, _, h⟩ := Py.bind_ok.mp h
    obtain ⟨_, _, h⟩ := Py.bind_ok.mp h
    obtain ⟨_, _, h⟩ := Py.bind_ok.mp h
    obtain ⟨_, _, h⟩ := Py.bind_ok.mp h
    cases h
    rfl
  obtain ⟨f, disc, hlf, _, _, hdisc, _⟩ := skTrain_ok h
  have tl := trained_of_train hlf
  have td := trained_of_train hdisc
  have hr : ∀ j, sk'.box.high j - sk'.box.low j ≠ 0 := by
    intro j
    rw [hbox]
    exact (sub_pos.mpr (hb j)).ne'
  refine ⟨?_, ?_, ?_, ?_, ofSK_nonneg _ _, ?_, ?_⟩
  · show Except.ok sk'.box = Except.ok sk.box
    rw [hbox]
  · intro m X
    exact ⟨_, Py.bind_ok.mpr ⟨_, predictMean_eq td.1 X, Py.bind_ok.mpr ⟨_, predictMean_eq tl.1 X, rfl⟩⟩⟩
  · intro m X
    obtain ⟨r, hr⟩ := gp_std_total hlf X
    obtain ⟨r', hr'⟩ := gp_std_total hdisc X
    exact ⟨_, Py.bind_ok.mpr ⟨_, hr, Py.bind_ok.mpr ⟨_, hr', rfl⟩⟩⟩
  · exact fun m X => gp_std_total hlf X
  · show 0 < nh + nl
    rcases Nat.eq_zero_or_pos nl with rfl | hl
    · exfalso
      have := tl.1.stdpos
      rw [tl.2.2.2.2.2.2.2.1] at this
      simp [std] at this
    · omega
  · intro m k X X' fid hfid
    rcases hfid with rfl | rfl
    · exact ⟨_, Py.bind_ok.mpr ⟨_, normalizeInput_eq X hr, Py.bind_ok.mpr ⟨_, normalizeInput_eq X' hr, rfl⟩⟩⟩
    · exact ⟨_, Py.bind_ok.mpr ⟨_, normalizeInput_eq X hr, Py.bind_ok.mpr ⟨_, normalizeInput_eq X' hr, rfl⟩⟩⟩

/-! ## C80 -/

/-- C80 (partial), hierarchical Kriging. With a search that does what it promises, every trained hierarchical Kriging model answers the queries of `VFLCB` and `VFEI`, and those of `AugmentedEI` and `ExtendedPI` unless
the two fidelities have the same prediction somewhere with no uncertainty.  Missing: the same for co-Kriging, which is false, see `C80_counterexample`. -/
theorem C80_hk_query_partial {W : Type} {nh nl q : ℕ} (de : DiffEvo W d) (hde : GoodSearch de) (ht : TotalSearch de) (hd : 0 < d) (hk : HKObj d q) (hb : ∀ j, hk.box.low j ≤ hk.box.high j) (w : MFWorld d)
    (Xh : Samples nh d) (yh : Fin nh → ℝ) (Xl : Samples nl d) (yl : Fin nl → ℝ) (hk' : HKObj d q) (t : HKFit nh nl d q) (h : hk.train w Xh yh Xl yl = .ok (hk', t)) :
    (∀ κ, Answers (vflcbQuery κ none de) (MFSurr.ofHK hk' t) hk.box) ∧ Answers (vfeiQuery none de) (MFSurr.ofHK hk' t) hk.box ∧
      (Separated (MFSurr.ofHK hk' t) hk.box → Answers (aeiQuery none de) (MFSurr.ofHK hk' t) hk.box ∧ Answers (epiQuery none de) (MFSurr.ofHK hk' t) hk.box) := by
  have hs := responsive_hk h
  exact ⟨fun κ => vflcb_answers hde ht hd hb hs κ, vfei_answers hde ht hd hb hs rfl ⟨_, rfl⟩, fun hsep => ⟨aei_answers hde ht hd hb hs hsep, epi_answers hde ht hd hb hs hsep⟩⟩

/-- C80 (partial), scaled Kriging: as `C80_hk_query_partial`, but without `VFEI`, which refuses every other surrogate with `ValueError`. -/
theorem C80_sk_query_partial {W : Type} {nh nl ql qd : ℕ} (de : DiffEvo W d) (hde : GoodSearch de) (ht : TotalSearch de) (hd : 0 < d) (sk : SKObj d ql qd) (hb : ∀ j, sk.box.low j < sk.box.high j)
    (w : SKWorld d) (Xh : Samples nh d) (yh : Fin nh → ℝ) (Xl : Samples nl d) (yl : Fin nl → ℝ) (sk' : SKObj d ql qd) (t : SKFit nh nl d ql qd) (h : sk.train w Xh yh Xl yl = .ok (sk', t)) :
    (∀ κ, Answers (vflcbQuery κ none de) (MFSurr.ofSK sk' t) sk.box) ∧
      (Separated (MFSurr.ofSK sk' t) sk.box → Answers (aeiQuery none de) (MFSurr.ofSK sk' t) sk.box ∧ Answers (epiQuery none de) (MFSurr.ofSK sk' t) sk.box) ∧
      ∀ fmin fid x, single (vfeiEval fmin (MFSurr.ofSK sk' t) fid) x = .error .valueError := by
  have hs := responsive_sk hb h
  have hb' : ∀ j, sk.box.low j ≤ sk.box.high j := fun j => (hb j).le
  exact ⟨fun κ => vflcb_answers hde ht hd hb' hs κ, fun hsep => ⟨aei_answers hde ht hd hb' hs hsep, epi_answers hde ht hd hb' hs hsep⟩, fun _ _ _ => rfl⟩

/-- A hierarchical Kriging model with non-zero noise satisfies the side condition of `C80_hk_query_partial`. -/
theorem separated_of_noise {nh nl q : ℕ} {hk : HKObj d q} {w : MFWorld d} {Xh : Samples nh d} {yh : Fin nh → ℝ} {Xl : Samples nl d} {yl : Fin nl → ℝ} {hk' : HKObj d q} {t : HKFit nh nl d q}
    (h : hk.train w Xh yh Xl yl = .ok (hk', t)) {s : ℝ} (hs : hk.noise = some s) (h0 : s ≠ 0) (b : Box ℝ d) : Separated (MFSurr.ofHK hk' t) b := by
  intro x _ μh σh μl σl h1 _
  right
  obtain ⟨hT, _, _, _, _, hno, _⟩ := hkTrained_of_train h
  obtain ⟨μ, σ, s', h2, h3, h4⟩ := (C42_hk_uncertainty _ _ _ _ _ _ _ _ h).1 1 (onePoint x)
  have e : (μh, σh) = (μ, σ) := Except.ok.inj (h1.symm.trans h2)
  have es : s' = s := by
    rw [hT.noise] at h3
    rw [← hno s hs]
    exact (Option.some.inj h3).symm
  have : |s| ≤ σh 0 := by rw [(Prod.mk.inj e).2, ← es]; exact (h4 0).2
  have := abs_pos.mpr h0
  linarith

/-- The example model of `Verif/Props/MFKriging.lean` with noise 1 answers all four acquisitions. -/
example : ∃ hk t, HKObj.train { exHK (some 0) with noise := some 1 } ⟨exWorld, exWorld⟩ (fun i _ => ![0, 1, 2] i : Samples 3 1) ![0, 1, 5] (fun i _ => ![0, 1, 2] i : Samples 3 1) ![0, 1, 2] = .ok (hk, t) ∧
    Answers (vfeiQuery none (exOutside 1).de) (MFSurr.ofHK hk t) (exHK (some 0)).box ∧ Answers (aeiQuery none (exOutside 1).de) (MFSurr.ofHK hk t) (exHK (some 0)).box ∧
    Answers (epiQuery none (exOutside 1).de) (MFSurr.ofHK hk t) (exHK (some 0)).box := by
  obtain ⟨lf', lfFit, hlf⟩ := exGP_trains (some 0) (fun i _ => ![0, 1, 2] i : Samples 3 1) ![0, 1, 2] 0 1 (by norm_num)
  have hf := C34_interpolation _ _ _ _ rfl _ _ hlf
  have hmean : GP.mean (![0, 1, 5] : Fin 3 → ℝ) = 2 := by
    unfold GP.mean; rw [Fin.sum_univ_three]; simp; norm_num
  obtain ⟨hk, t, htr⟩ := C41_hk_train_succeeds { exHK (some 0) with noise := some 1 } ⟨exWorld, exWorld⟩ (fun i _ => ![0, 1, 2] i : Samples 3 1) ![0, 1, 5]
    (fun i _ => ![0, 1, 2] i : Samples 3 1) ![0, 1, 2] (fun _ => by simp [exHK, exGP]) (by simp [exHK, RBF.mk']; norm_num)
    cornerMinimizer_good (fun run h => by simp [exHK] at h) (by simp [exWorld]) (by simp [exWorld]) 0 1 (by norm_num) lf' lfFit hlf _ hf 0 (by rw [hmean]; simp) (fun h => by simp at h)
  have hlo := exOutside_lawful 1
  have := C80_hk_query_partial (exOutside 1).de hlo.de hlo.de_total one_pos { exHK (some 0) with noise := some 1 } (fun _ => by simp [exHK, exGP]) _ _ _ _ _ hk t htr
  exact ⟨hk, t, htr, this.2.1, this.2.2 (separated_of_noise htr rfl one_ne_zero _)⟩

/-! ## C111 -/

/-- The combinations of surrogate name and acquisition that need nothing beyond a trained surrogate: `VFEI` with hierarchical Kriging, `VFLCB` with hierarchical or scaled Kriging, both with the default search. -/
def WorksWith {W : Type} (de : DiffEvo W d) (name : String) (q : MFQuery W d) : Prop :=
  name = "HierarchicalKriging" ∧ q = vfeiQuery none de ∨ (name = "HierarchicalKriging" ∨ name = "ScaledKriging") ∧ ∃ κ, q = vflcbQuery κ none de

/-- What the loop keeps true of its surrogate. -/
def Ready (b : Box ℝ d) (name : String) (m : MFModel d) : Prop :=
  UsualMF b m ∧ (∃ v, m.view = .ok v ∧ Responsive v b ∧ (name = "HierarchicalKriging" → v.isHK = true ∧ ∃ β, v.beta = .ok β) ∧ (name = "ScaledKriging" → v.isHK = false)) ∧
    (name = "HierarchicalKriging" → ∃ g t, m = .hk g t) ∧ (name = "ScaledKriging" → ∃ g t, m = .sk g t)

theorem train_ready {o : Outside d} {b : Box ℝ d} (hb : ∀ j, b.low j < b.high j) {name : String} (hname : name = "HierarchicalKriging" ∨ name = "ScaledKriging") {m m' : MFModel d}
    (h0 : UsualMF b m) (hH : name = "HierarchicalKriging" → ∃ g t, m = .hk g t) (hS : name = "ScaledKriging" → ∃ g t, m = .sk g t)
    {xs : List (Fin d → ℝ) × List (Fin d → ℝ)} {ys : List ℝ × List ℝ} {w w' : o.env.S} (h : m.train o xs ys w = .ok (m', w')) : Ready b name m' := by
  refine ⟨(mfModel_train_ok h0 h).1, ?_⟩
  unfold MFModel.train at h
  split_ifs at h with hl
  rcases hname with hn | hn
  · obtain ⟨g, t0, rfl⟩ := hH hn
    obtain ⟨⟨g', t⟩, h1, h⟩ := Py.bind_ok.mp h
    cases h
    have hr := responsive_hk h1
    rw [h0.1] at hr
    have hns : name ≠ "ScaledKriging" := by rw [hn]; decide
    exact ⟨⟨_, rfl, hr, fun _ => ⟨rfl, _, rfl⟩, fun hc => absurd hc hns⟩, fun _ => ⟨_, _, rfl⟩, fun hc => absurd hc hns⟩
  · obtain ⟨g, t0, rfl⟩ := hS hn
    obtain ⟨⟨g', t⟩, h1, h⟩ := Py.bind_ok.mp h
    cases h
    have hr := responsive_sk (by rw [h0.1]; exact hb) h1
    rw [h0.1] at hr
    have hnh : name ≠ "HierarchicalKriging" := by rw [hn]; decide
    exact ⟨⟨_, rfl, hr, fun hc => absurd hc hnh, fun _ => rfl⟩, fun hc => absurd hc hnh, fun _ => ⟨_, _, rfl⟩⟩

theorem mf_ready {o : Outside d} {b : Box ℝ d} (hb : ∀ j, b.low j < b.high j) {hf lf : List (Fin d → ℝ) → Py (List ℝ)} {optimum : Option ℝ} {query : MFQuery o.env.S d} {name : String}
    (hname : name = "HierarchicalKriging" ∨ name = "ScaledKriging") {seed : ℕ} {s : MFState ℝ (Fin d → ℝ) (MFModel d) (o.env.S × List ℕ)}
    (h : MFReachable (mfBO o b hf lf optimum query name seed) s) : Ready b name s.surrogate := by
  refine mf_reachable_inv (fun s => Ready b name s.surrogate) ?_ ?_ h
  · intro w s h
    obtain ⟨w1, su, i, h1, h2, h3, h4, _⟩ := mf_new_steps h
    obtain ⟨⟨m1, w2⟩, h5, h4⟩ := Py.bind_ok.mp h4
    have e1 : m1 = s.surrogate := congrArg Prod.fst (Except.ok.inj h4)
    subst e1
    have h3' : freshMF b name = .ok su := h3
    refine train_ready hb hname (freshMF_ok h3').1 ?_ ?_ h5
    · intro hn
      unfold freshMF at h3'
      rw [if_pos hn] at h3'
      cases h3'
      exact ⟨_, _, rfl⟩
    · intro hn
      unfold freshMF at h3'
      rw [if_neg (by rw [hn]; decide), if_pos hn] at h3'
      cases h3'
      exact ⟨_, _, rfl⟩
  · rintro cr s s' ⟨i1, _, i3, i4⟩ h
    obtain ⟨x, fid, w1, y, h1, h2, _⟩ := mf_iterate_steps h
    obtain ⟨⟨m1, w2⟩, h5, h2⟩ := Py.bind_ok.mp h2
    have e1 : m1 = s'.surrogate := congrArg Prod.fst (Except.ok.inj h2)
    subst e1
    exact train_ready hb hname i1 i3 i4 h5

theorem ready_query {o : Outside d} (ho : Lawful o) (hd : 0 < d) {b : Box ℝ d} (hb : ∀ j, b.low j < b.high j) {name : String} {query : MFQuery o.env.S d} (hq : WorksWith o.de name query)
    {m : MFModel d} (hm : Ready b name m) (cr fmin : ℝ) (w : o.env.S × List ℕ) (hf lf : List (Fin d → ℝ) → Py (List ℝ)) (optimum : Option ℝ) (seed : ℕ) :
    ∃ x fid w', (mfBO o b hf lf optimum query name seed).query m cr fmin w = .ok ((x, fid), w') ∧ InBounds b x ∧ (fid = 0 ∨ fid = 1) := by
  obtain ⟨_, ⟨v, hv, hr, hvH, _⟩, _⟩ := hm
  have hb' : ∀ j, b.low j ≤ b.high j := fun j => (hb j).le
  have ha : Answers query v b := by
    rcases hq with ⟨hn, rfl⟩ | ⟨_, κ, rfl⟩
    · exact vfei_answers ho.de ho.de_total hd hb' hr (hvH hn).1 (hvH hn).2
    · exact vflcb_answers ho.de ho.de_total hd hb' hr κ
  obtain ⟨x, fid, w', h1, h2⟩ := ha cr fmin w.1
  exact ⟨x, fid, (w', w.2), Py.bind_ok.mpr ⟨v, hv, Py.bind_ok.mpr ⟨_, h1, rfl⟩⟩, h2⟩

/-- C111. `mfUnConsBayesOpt` with hierarchical Kriging and `VFEI` or `VFLCB`, or with scaled Kriging and `VFLCB`, on a problem defined on the whole space.  An exception that comes out of `run_optimizer` was raised by the
training of the surrogate in one of the iterations, on the samples stored after the iterations before it together with one new point of the design space and its response of one of the fidelities. -/
theorem C111_mf_raises_in_training (o : Outside d) (ho : Lawful o) (hd : 0 < d) (b : Box ℝ d) (hb : ∀ j, b.low j < b.high j) {hf lf : List (Fin d → ℝ) → Py (List ℝ)} {g l : (Fin d → ℝ) → ℝ}
    (hg : Rowwise hf g) (hl : Rowwise lf l) (optimum : Option ℝ) {query : MFQuery o.env.S d} {name : String} (hq : WorksWith o.de name query) (seed : ℕ)
    {s : MFState ℝ (Fin d → ℝ) (MFModel d) (o.env.S × List ℕ)} (h : MFReachable (mfBO o b hf lf optimum query name seed) s) (maxIter : ℕ) (cr stop : ℝ) (e : PyErr)
    (hrun : (mfBO o b hf lf optimum query name seed).run maxIter cr stop s = .error e) :
    ∃ k s' x w, k < maxIter ∧ (mfBO o b hf lf optimum query name seed).run k cr stop s = .ok s' ∧ InBounds b x ∧
      (s'.surrogate.train o (s'.sampleH ++ [x], s'.sampleL) (s'.responseH ++ [g x], s'.responseL) w = .error e ∨
        s'.surrogate.train o (s'.sampleH, s'.sampleL ++ [x]) (s'.responseH, s'.responseL ++ [l x]) w = .error e) := by
  set p := mfBO o b hf lf optimum query name seed with hp
  have hname : name = "HierarchicalKriging" ∨ name = "ScaledKriging" := by
    rcases hq with ⟨hn, _⟩ | ⟨hn, _⟩
    · exact Or.inl hn
    · exact hn
  have hloop : ∀ k s, MFReachable p s → p.loop cr stop k s = .error e → ∃ k' s' x w, k' < k ∧ p.loop cr stop k' s = .ok s' ∧ InBounds b x ∧
      (s'.surrogate.train o (s'.sampleH ++ [x], s'.sampleL) (s'.responseH ++ [g x], s'.responseL) w = .error e ∨
        s'.surrogate.train o (s'.sampleH, s'.sampleL ++ [x]) (s'.responseH, s'.responseL ++ [l x]) w = .error e) := by
    intro k
    induction k with
    | zero => intro s _ h; cases h
    | succ k ih =>
      intro s hs hr
      unfold MFProblem.loop at hr
      by_cases hc : updateError s.best p.optimum > stop
      · rw [if_pos hc] at hr
        cases hit : p.iterate cr s with
        | ok s1 =>
          rw [hit] at hr
          obtain ⟨k', s', x, w, hk, hl', hrest⟩ := ih s1 (.run 1 cr stop hs (by
            unfold MFProblem.run MFProblem.loop
            rw [if_pos hc]
            exact Py.bind_ok.mpr ⟨s1, hit, rfl⟩)) hr
          refine ⟨k' + 1, s', x, w, by omega, ?_, hrest⟩
          unfold MFProblem.loop
          rw [if_pos hc]
          exact Py.bind_ok.mpr ⟨s1, hit, hl'⟩
        | error e' =>
          rw [hit] at hr
          cases hr
          obtain ⟨x, fid, w', h1, h2, h3⟩ := ready_query ho hd hb hq (mf_ready hb hname hs) cr s.best s.rng hf lf optimum seed
          refine ⟨0, s, x, w'.1, by omega, rfl, h2, ?_⟩
          unfold MFProblem.iterate at hit
          rw [show p.query s.surrogate cr s.best s.rng = _ from h1] at hit
          rcases h3 with rfl | rfl
          · left
            cases htr : s.surrogate.train o (s.sampleH ++ [x], s.sampleL) (s.responseH ++ [g x], s.responseL) w'.1 with
            | error e2 =>
              have ht : p.train s.surrogate (s.sampleH ++ [x], s.sampleL) (s.responseH ++ [g x], s.responseL) w' = .error e2 := by
                show (s.surrogate.train o (s.sampleH ++ [x], s.sampleL) (s.responseH ++ [g x], s.responseL) w'.1 >>= _) = _
                rw [htr]
                rfl
              have hy : p.hf [x] = .ok [g x] := hg [x]
              simp only [if_true, hy, bind, Except.bind, ht] at hit
              cases hit
              rfl
            | ok r =>
              have ht : p.train s.surrogate (s.sampleH ++ [x], s.sampleL) (s.responseH ++ [g x], s.responseL) w' = .ok (r.1, (r.2, w'.2)) := by
                show (s.surrogate.train o (s.sampleH ++ [x], s.sampleL) (s.responseH ++ [g x], s.responseL) w'.1 >>= _) = _
                rw [htr]
                rfl
              have hy : p.hf [x] = .ok [g x] := hg [x]
              exfalso
              simp only [if_true, hy, bind, Except.bind, ht, mfUpdatePara, npRow, List.getElem?_cons_zero] at hit
              by_cases hlt : g x < s.best
              · simp only [if_pos hlt] at hit
                cases hit
              · simp only [if_neg hlt] at hit
                cases hit
          · right
            cases htr : s.surrogate.train o (s.sampleH, s.sampleL ++ [x]) (s.responseH, s.responseL ++ [l x]) w'.1 with
            | error e2 =>
              have ht : p.train s.surrogate (s.sampleH, s.sampleL ++ [x]) (s.responseH, s.responseL ++ [l x]) w' = .error e2 := by
                show (s.surrogate.train o (s.sampleH, s.sampleL ++ [x]) (s.responseH, s.responseL ++ [l x]) w'.1 >>= _) = _
                rw [htr]
                rfl
              have hy : p.lf [x] = .ok [l x] := hl [x]
              simp only [one_ne_zero, if_false, hy, bind, Except.bind, ht] at hit
              cases hit
              rfl
            | ok r =>
              have ht : p.train s.surrogate (s.sampleH, s.sampleL ++ [x]) (s.responseH, s.responseL ++ [l x]) w' = .ok (r.1, (r.2, w'.2)) := by
                show (s.surrogate.train o (s.sampleH, s.sampleL ++ [x]) (s.responseH, s.responseL ++ [l x]) w'.1 >>= _) = _
                rw [htr]
                rfl
              have hy : p.lf [x] = .ok [l x] := hl [x]
              exfalso
              simp only [one_ne_zero, if_false, hy, bind, Except.bind, ht, mfUpdatePara] at hit
              cases hit
      · rw [if_neg hc] at hr; cases hr
  exact hloop maxIter s h hrun

theorem lf_differ {o : Outside d} {m m' : MFModel d} (hS : ∃ g t, m = .sk g t) {xs : List (Fin d → ℝ) × List (Fin d → ℝ)} {ys : List ℝ × List ℝ} {w w' : o.env.S}
    (h : m.train o xs ys w = .ok (m', w')) : ∃ y ∈ ys.2, ∃ y' ∈ ys.2, y ≠ y' := by
  unfold MFModel.train at h
  split_ifs at h with hl
  obtain ⟨g, t0, rfl⟩ := hS
  obtain ⟨⟨g', t⟩, h1, h⟩ := Py.bind_ok.mp h
  obtain ⟨_, _, hlf, _⟩ := skTrain_ok h1
  by_contra hc
  push Not at hc
  obtain ⟨e, he⟩ := C31_constant_fails g.lf (o.world g.lf.kernel w).1 (rows xs.2) (column ys.2 hl.2) fun i j => hc _ (List.getElem_mem _) _ (List.getElem_mem _)
  rw [he] at hlf
  cases hlf

/-- Two samples that both fidelities have, in the same rows, and at which the fidelities differ by different amounts. -/
def SharedRows (sH sL : List (Fin d → ℝ)) (g l : (Fin d → ℝ) → ℝ) : Prop :=
  ∃ (i j : ℕ) (x x' : Fin d → ℝ), sH[i]? = some x ∧ sL[i]? = some x ∧ sH[j]? = some x' ∧ sL[j]? = some x' ∧ g x - l x ≠ g x' - l x'

theorem SharedRows.append {sH sL : List (Fin d → ℝ)} {g l : (Fin d → ℝ) → ℝ} (h : SharedRows sH sL g l) (a c : List (Fin d → ℝ)) : SharedRows (sH ++ a) (sL ++ c) g l := by
  obtain ⟨i, j, x, x', h1, h2, h3, h4, h5⟩ := h
  have e : ∀ (s a : List (Fin d → ℝ)) (k : ℕ) (x : Fin d → ℝ), s[k]? = some x → (s ++ a)[k]? = some x := by
    intro s a k x hk
    rw [List.getElem?_append_left (List.getElem?_eq_some_iff.mp hk).1]
    exact hk
  exact ⟨i, j, x, x', e _ _ _ _ h1, e _ _ _ _ h2, e _ _ _ _ h3, e _ _ _ _ h4, h5⟩

theorem sk_train_shared {o : Outside d} (ho : Lawful o) {b : Box ℝ d} (hb : ∀ j, b.low j < b.high j) {g l : (Fin d → ℝ) → ℝ} {sk : SKObj d 1 1} {t0 : Option (Σ nh nl, SKFit nh nl d 1 1)}
    (h0 : UsualMF b (.sk sk t0)) {sH sL : List (Fin d → ℝ)} (hs : SharedRows sH sL g l) (hl : ∃ y ∈ sL.map l, ∃ y' ∈ sL.map l, y ≠ y') (w : o.env.S) :
    ∃ r, MFModel.train o (.sk sk t0) (sH, sL) (sH.map g, sL.map l) w = .ok r := by
  obtain ⟨hbox, hrho, hopt, hlf, hdisc⟩ := h0
  have hlen : (sH.map g).length = sH.length ∧ (sL.map l).length = sL.length := by simp
  have hst : ∀ (k : RBF d) w, (o.world k w).1.starts ≠ [] := by
    intro k w he
    have := ho.uniform_len 11 d (fun _ => k.boundLow) (fun _ => k.boundHigh) w
    simp only [Outside.world] at he
    rw [he] at this
    simp at this
  obtain ⟨y, hy, y', hy', hne⟩ := hl
  obtain ⟨i, hi, rfl⟩ := List.mem_iff_getElem.mp hy
  obtain ⟨j, hj, rfl⟩ := List.mem_iff_getElem.mp hy'
  obtain ⟨lf', lfFit, htl⟩ := usual_train_succeeds hb hlf (w := (o.world sk.lf.kernel w).1) ho.mini (hst _ _) (rows sL) (column (sL.map l) hlen.2) ⟨i, by simpa using hi⟩ ⟨j, by simpa using hj⟩ hne
  have hint := C34_interpolation _ _ _ _ hlf.noise _ _ htl
  obtain ⟨μ, σ, _, hrow⟩ := gp_rows (trained_of_train htl).1
  have hmean : ∀ (m : ℕ) (X : Samples m d), predictMean lf' lfFit X = .ok (fun k => μ k (X k)) := fun m X => C37_gp _ _ _ _ _ (hrow m X)
  have hval : ∀ (k : ℕ) (x : Fin d → ℝ), sL[k]? = some x → μ k x = l x := by
    intro k x hk
    obtain ⟨hkl, hkx⟩ := List.getElem?_eq_some_iff.mp hk
    have := congrFun (Except.ok.inj ((hmean _ (rows sL)).symm.trans hint)) ⟨k, hkl⟩
    simpa [rows, column, hkx] using this
  obtain ⟨a, c, x, x', e1, e2, e3, e4, e5⟩ := hs
  obtain ⟨ha, hax⟩ := List.getElem?_eq_some_iff.mp e1
  obtain ⟨hc, hcx⟩ := List.getElem?_eq_some_iff.mp e3
  obtain ⟨disc', discFit, htd⟩ := usual_train_succeeds hb hdisc (w := (o.world sk.disc.kernel (o.world sk.lf.kernel w).2).1) ho.mini (hst _ _) (rows sH)
    (getDisc sk.rho (fun k : Fin sH.length => μ k (rows sH k)) (column (sH.map g) hlen.1)) ⟨a, ha⟩ ⟨c, hc⟩ (by
      simp only [getDisc, hrho, rows, column, Fin.getElem_fin, List.getElem_map, hax, hcx, hval _ _ e2, hval _ _ e4, one_mul]
      exact e5)
  have hr : (if sk.rhoOptimize then sk.optimizeRho { lf := (o.world sk.lf.kernel w).1, disc := (o.world sk.disc.kernel (o.world sk.lf.kernel w).2).1, mini := o.mini, x0 := 0, bumpEvals := [], bumpX := 0 } (rows sH)
      (column (sH.map g) hlen.1) (fun k : Fin sH.length => μ k (rows sH k)) else .ok (sk.rho, sk.disc)) = .ok (sk.rho, sk.disc) := by
    rw [hopt]
    rfl
  have hsk : ∃ r, sk.train { lf := (o.world sk.lf.kernel w).1, disc := (o.world sk.disc.kernel (o.world sk.lf.kernel w).2).1, mini := o.mini, x0 := 0, bumpEvals := [], bumpX := 0 } (rows sH)
      (column (sH.map g) hlen.1) (rows sL) (column (sL.map l) hlen.2) = .ok r :=
    ⟨_, Py.bind_ok.mpr ⟨_, htl, Py.bind_ok.mpr ⟨_, hmean _ _, Py.bind_ok.mpr ⟨_, hr, Py.bind_ok.mpr ⟨_, htd, rfl⟩⟩⟩⟩⟩
  obtain ⟨r, hsk⟩ := hsk
  refine ⟨(.sk r.1 (some ⟨_, _, r.2⟩), (o.world sk.disc.kernel (o.world sk.lf.kernel w).2).2), ?_⟩
  unfold MFModel.train
  rw [dif_pos hlen]
  exact Py.bind_ok.mpr ⟨_, hsk, rfl⟩

/-- C111 (scaled Kriging with `VFLCB`). If two samples of a state are shared by the fidelities, in the same rows, and the fidelities differ there by different amounts, every later `run_optimizer` returns. -/
theorem C111_sk_succeeds (o : Outside d) (ho : Lawful o) (hd : 0 < d) (b : Box ℝ d) (hb : ∀ j, b.low j < b.high j) {hf lf : List (Fin d → ℝ) → Py (List ℝ)} {g l : (Fin d → ℝ) → ℝ}
    (hg : Rowwise hf g) (hl : Rowwise lf l) (optimum : Option ℝ) (κ : ℝ × ℝ) (seed : ℕ) {s : MFState ℝ (Fin d → ℝ) (MFModel d) (o.env.S × List ℕ)}
    (h : MFReachable (mfBO o b hf lf optimum (vflcbQuery κ none o.de) "ScaledKriging" seed) s) (hshared : SharedRows s.sampleH s.sampleL g l) (maxIter : ℕ) (cr stop : ℝ) :
    ∃ s', (mfBO o b hf lf optimum (vflcbQuery κ none o.de) "ScaledKriging" seed).run maxIter cr stop s = .ok s' := by
  set p := mfBO o b hf lf optimum (vflcbQuery κ none o.de) "ScaledKriging" seed with hp
  cases hr : p.run maxIter cr stop s with
  | ok s' => exact ⟨s', rfl⟩
  | error e =>
    exfalso
    obtain ⟨k, s', x, w, hk, hrun, _, htrain⟩ := C111_mf_raises_in_training o ho hd b hb hg hl optimum (Or.inr ⟨Or.inr rfl, κ, rfl⟩) seed h maxIter cr stop e hr
    have hreach : MFReachable p s' := .run k cr stop h hrun
    have hsh : SharedRows s'.sampleH s'.sampleL g l := by
      refine mf_loop_inv (fun s => SharedRows s.sampleH s.sampleL g l) ?_ stop k _ _ hshared hrun
      intro s s' i1 hit
      obtain ⟨x, fid, w1, y, _, _, h3, _⟩ := mf_iterate_steps hit
      rcases h3 with ⟨_, _, e1, e2, _⟩ | ⟨_, _, e1, e2, _⟩
      · rw [e1, e2]
        have := i1.append [x] []
        rwa [List.append_nil] at this
      · rw [e1, e2]
        have := i1.append [] [x]
        rwa [List.append_nil] at this
    obtain ⟨hU, _, _, hS⟩ := mf_ready hb (Or.inr rfl) hreach
    obtain ⟨sk, t0, hm⟩ := hS rfl
    rw [hm] at hU
    obtain ⟨eH, eL, _⟩ := C90_mf_responses o b hg hl optimum _ _ seed hreach
    have hdiff : ∃ y ∈ s'.responseL, ∃ y' ∈ s'.responseL, y ≠ y' := by
      refine (mf_reachable_inv (fun s => (Ready b "ScaledKriging" s.surrogate) ∧ ∃ y ∈ s.responseL, ∃ y' ∈ s.responseL, y ≠ y') ?_ ?_ hreach).2
      · intro w s h
        refine ⟨mf_ready hb (Or.inr rfl) (.new _ h), ?_⟩
        obtain ⟨w1, su, i, h1, h2, h3, h4, _⟩ := mf_new_steps h
        obtain ⟨⟨m1, w2⟩, h5, h4⟩ := Py.bind_ok.mp h4
        refine lf_differ ?_ h5
        have h3' : freshMF b "ScaledKriging" = .ok su := h3
        unfold freshMF at h3'
        rw [if_neg (by decide), if_pos rfl] at h3'
        cases h3'
        exact ⟨_, _, rfl⟩
      · rintro cr s s' ⟨⟨i1, i2, i3, i4⟩, _⟩ hit
        obtain ⟨x, fid, w1, y, h1, h2, _⟩ := mf_iterate_steps hit
        obtain ⟨⟨m1, w2⟩, h5, h2⟩ := Py.bind_ok.mp h2
        have e1 : m1 = s'.surrogate := congrArg Prod.fst (Except.ok.inj h2)
        subst e1
        exact ⟨train_ready hb (Or.inr rfl) i1 i3 i4 h5, lf_differ (i4 rfl) h5⟩
    rw [hm] at htrain
    obtain ⟨y, hy, y', hy', hne⟩ := hdiff
    rcases htrain with ht | ht
    · have hsh' := hsh.append [x] []
      rw [List.append_nil] at hsh'
      obtain ⟨r, hr'⟩ := sk_train_shared ho hb hU hsh' ⟨y, eL ▸ hy, y', eL ▸ hy', hne⟩ w
      rw [eH, eL, show s'.sampleH.map g ++ [g x] = (s'.sampleH ++ [x]).map g by simp, hr'] at ht
      cases ht
    · have hsh' := hsh.append [] [x]
      rw [List.append_nil] at hsh'
      obtain ⟨r, hr'⟩ := sk_train_shared ho hb hU hsh' ⟨y, by rw [List.map_append, ← eL]; simp [hy], y', by rw [List.map_append, ← eL]; simp [hy'], hne⟩ w
      rw [eH, eL, show s'.sampleL.map l ++ [l x] = (s'.sampleL ++ [x]).map l by simp, hr'] at ht
      cases ht

/-- C111 (scaled Kriging with `VFEI`). This combination cannot do a single iteration. -/
theorem C111_sk_vfei_fails (o : Outside d) (ho : Lawful o) (b : Box ℝ d) (hb : ∀ j, b.low j < b.high j) (hf lf : List (Fin d → ℝ) → Py (List ℝ)) (optimum : Option ℝ) (seed : ℕ)
    {s : MFState ℝ (Fin d → ℝ) (MFModel d) (o.env.S × List ℕ)} (h : MFReachable (mfBO o b hf lf optimum (vfeiQuery none o.de) "ScaledKriging" seed) s) (maxIter : ℕ) (hm : 0 < maxIter) (cr stop : ℝ)
    (hstop : optimumError s.best optimum > stop) : ∃ e, (mfBO o b hf lf optimum (vfeiQuery none o.de) "ScaledKriging" seed).run maxIter cr stop s = .error e := by
  obtain ⟨k, rfl⟩ : ∃ k, maxIter = k + 1 := ⟨maxIter - 1, by omega⟩
  cases hr : (mfBO o b hf lf optimum (vfeiQuery none o.de) "ScaledKriging" seed).run (k + 1) cr stop s with
  | error e => exact ⟨e, rfl⟩
  | ok s' =>
    exfalso
    unfold MFProblem.run MFProblem.loop at hr
    rw [updateError_eq, if_pos (show optimumError s.best (mfBO o b hf lf optimum (vfeiQuery none o.de) "ScaledKriging" seed).optimum > stop from hstop)] at hr
    obtain ⟨s1, h1, _⟩ := Py.bind_ok.mp hr
    obtain ⟨x, fid, w1, y, h2, _⟩ := mf_iterate_steps h1
    obtain ⟨_, ⟨v, hv, _, _, hS⟩, _⟩ := mf_ready hb (Or.inr rfl) h
    obtain ⟨v', hv', h2⟩ := Py.bind_ok.mp h2
    obtain rfl : v = v' := Except.ok.inj (hv.symm.trans hv')
    obtain ⟨⟨r, w2⟩, hr2, h2⟩ := Py.bind_ok.mp h2
    obtain ⟨b', hfr, wm, lfr, _, e0, _⟩ := mfChoose_ok (x := r.1) (fid := r.2) hr2
    have := (ho.de _ _ _ hfr.1 hfr.2 _ e0).2
    obtain ⟨q, hq, _⟩ := single_ok.mp this
    unfold vfeiEval at hq
    rw [if_pos (hS rfl)] at hq
    cases hq

/-! ### Hierarchical Kriging -/

/-- The bounds and the optimiser of a hierarchical Kriging model the optimiser built. -/
def HKUsual : MFModel d → Prop
  | .hk g _ => g.kernel.boundLow = -2 ∧ g.kernel.boundHigh = 3 ∧ g.optimizer = none
  | _ => True

theorem hkUsual_train {o : Outside d} {m m' : MFModel d} (h0 : HKUsual m) {xs : List (Fin d → ℝ) × List (Fin d → ℝ)} {ys : List ℝ × List ℝ} {w w' : o.env.S}
    (h : m.train o xs ys w = .ok (m', w')) : HKUsual m' := by
  unfold MFModel.train at h
  split_ifs at h with hl
  cases m with
  | hk g _ =>
    obtain ⟨⟨g', t⟩, h1, h⟩ := Py.bind_ok.mp h
    cases h
    unfold HKObj.train at h1
    obtain ⟨_, _, h1⟩ := Py.bind_ok.mp h1
    obtain ⟨_, _, h1⟩ := Py.bind_ok.mp h1
    obtain ⟨_, _, h1⟩ := Py.bind_ok.mp h1
    obtain ⟨_, _, h1⟩ := Py.bind_ok.mp h1
    obtain ⟨_, _, h1⟩ := Py.bind_ok.mp h1
    obtain ⟨_, _, h1⟩ := Py.bind_ok.mp h1
    have e : _ = g' := congrArg Prod.fst (Except.ok.inj h1)
    subst e
    exact h0
  | sk g _ =>
    obtain ⟨⟨g', t⟩, h1, h⟩ := Py.bind_ok.mp h
    cases h
    trivial
  | ck g _ =>
    obtain ⟨⟨g', t⟩, h1, h⟩ := Py.bind_ok.mp h
    cases h
    trivial

theorem mf_hkUsual {o : Outside d} {b : Box ℝ d} {hf lf : List (Fin d → ℝ) → Py (List ℝ)} {optimum : Option ℝ} {query : MFQuery o.env.S d} {name : String} {seed : ℕ}
    {s : MFState ℝ (Fin d → ℝ) (MFModel d) (o.env.S × List ℕ)} (h : MFReachable (mfBO o b hf lf optimum query name seed) s) : HKUsual s.surrogate := by
  refine mf_reachable_inv (fun s => HKUsual s.surrogate) ?_ ?_ h
  · intro w s h
    obtain ⟨w1, su, i, h1, h2, h3, h4, _⟩ := mf_new_steps h
    obtain ⟨⟨m1, w2⟩, h5, h4⟩ := Py.bind_ok.mp h4
    have e1 : m1 = s.surrogate := congrArg Prod.fst (Except.ok.inj h4)
    subst e1
    have h3' : freshMF b name = .ok su := h3
    refine hkUsual_train ?_ h5
    unfold freshMF at h3'
    split_ifs at h3' <;> cases h3'
    · exact ⟨rfl, rfl, rfl⟩
    · trivial
    · trivial
  · rintro cr s s' i1 h
    obtain ⟨x, fid, w1, y, h1, h2, _⟩ := mf_iterate_steps h
    obtain ⟨⟨m1, w2⟩, h5, h2⟩ := Py.bind_ok.mp h2
    have e1 : m1 = s'.surrogate := congrArg Prod.fst (Except.ok.inj h2)
    subst e1
    exact hkUsual_train i1 h5

/-- Three samples that both fidelities have, in the same rows, at which the pairs (low-fidelity response, high-fidelity response) do not lie on a line. -/
def SharedTriple (sH sL : List (Fin d → ℝ)) (g l : (Fin d → ℝ) → ℝ) : Prop :=
  ∃ (i j k : ℕ) (x y z : Fin d → ℝ), (sH[i]? = some x ∧ sL[i]? = some x) ∧ (sH[j]? = some y ∧ sL[j]? = some y) ∧ (sH[k]? = some z ∧ sL[k]? = some z) ∧
    (l y - l x) * (g z - g x) ≠ (l z - l x) * (g y - g x)

theorem getElem?_append_some {s : List (Fin d → ℝ)} {k : ℕ} {x : Fin d → ℝ} (h : s[k]? = some x) (a : List (Fin d → ℝ)) : (s ++ a)[k]? = some x := by
  rw [List.getElem?_append_left (List.getElem?_eq_some_iff.mp h).1]
  exact h

theorem SharedTriple.append {sH sL : List (Fin d → ℝ)} {g l : (Fin d → ℝ) → ℝ} (h : SharedTriple sH sL g l) (a c : List (Fin d → ℝ)) : SharedTriple (sH ++ a) (sL ++ c) g l := by
  obtain ⟨i, j, k, x, y, z, hx, hy, hz, hne⟩ := h
  exact ⟨i, j, k, x, y, z, ⟨getElem?_append_some hx.1 a, getElem?_append_some hx.2 c⟩, ⟨getElem?_append_some hy.1 a, getElem?_append_some hy.2 c⟩,
    ⟨getElem?_append_some hz.1 a, getElem?_append_some hz.2 c⟩, hne⟩

theorem hk_train_startsNoise {nh nl q : ℕ} {hk : HKObj d q} {v : ℝ} (hn : hk.noise = some v) (w : MFWorld d) (ls : List (Fin (d + 1) → ℝ)) (Xh : Samples nh d) (yh : Fin nh → ℝ)
    (Xl : Samples nl d) (yl : Fin nl → ℝ) : hk.train w Xh yh Xl yl = hk.train { w with hf := { w.hf with startsNoise := ls } } Xh yh Xl yl := by
  simp only [HKObj.train, HKObj.fitHyper, hn]

theorem hk_train_shared {o : Outside d} (ho : Lawful o) {b : Box ℝ d} (hb : ∀ j, b.low j < b.high j) {g l : (Fin d → ℝ) → ℝ} {hk : HKObj d 1} {t0 : Option (Σ nh nl, HKFit nh nl d 1)}
    (h0 : UsualMF b (.hk hk t0)) (hu : HKUsual (.hk hk t0)) {sH sL : List (Fin d → ℝ)} (hs : SharedTriple sH sL g l) (w : o.env.S) :
    ∃ r, MFModel.train o (.hk hk t0) (sH, sL) (sH.map g, sL.map l) w = .ok r := by
  obtain ⟨hbox, hnoise, hlf⟩ := h0
  obtain ⟨hlow, hhigh, hopt⟩ := hu
  have hlen : (sH.map g).length = sH.length ∧ (sL.map l).length = sL.length := by simp
  have hst : ∀ (k : RBF d) w, (o.world k w).1.starts ≠ [] := by
    intro k w he
    have := ho.uniform_len 11 d (fun _ => k.boundLow) (fun _ => k.boundHigh) w
    simp only [Outside.world] at he
    rw [he] at this
    simp at this
  obtain ⟨i, j, k, x, y, z, ⟨ix, jx⟩, ⟨iy, jy⟩, ⟨iz, jz⟩, hne⟩ := hs
  obtain ⟨pi, ei⟩ := List.getElem?_eq_some_iff.mp ix
  obtain ⟨pj, ej⟩ := List.getElem?_eq_some_iff.mp iy
  obtain ⟨pk, ek⟩ := List.getElem?_eq_some_iff.mp iz
  obtain ⟨qi, fi⟩ := List.getElem?_eq_some_iff.mp jx
  obtain ⟨qj, fj⟩ := List.getElem?_eq_some_iff.mp jy
  obtain ⟨qk, fk⟩ := List.getElem?_eq_some_iff.mp jz
  have hldiff : ∃ a c : Fin sL.length, column (sL.map l) hlen.2 a ≠ column (sL.map l) hlen.2 c := by
    by_cases e : l y = l x
    · by_cases e' : l z = l x
      · exact absurd (by rw [e, e']; ring) hne
      · exact ⟨⟨k, qk⟩, ⟨i, qi⟩, by simpa [column, fi, fk] using e'⟩
    · exact ⟨⟨j, qj⟩, ⟨i, qi⟩, by simpa [column, fi, fj] using e⟩
  obtain ⟨a, c, hac⟩ := hldiff
  obtain ⟨lf', lfFit, htl⟩ := usual_train_succeeds hb hlf (w := (o.world hk.lf.kernel w).1) ho.mini (hst _ _) (rows sL) (column (sL.map l) hlen.2) a c hac
  have hint := C34_interpolation _ _ _ _ hlf.noise _ _ htl
  obtain ⟨μ, σ, _, hrow⟩ := gp_rows (trained_of_train htl).1
  have hmean : ∀ (m : ℕ) (X : Samples m d), predictMean lf' lfFit X = .ok (fun k => μ k (X k)) := fun m X => C37_gp _ _ _ _ _ (hrow m X)
  have hval : ∀ (k : ℕ) (x : Fin d → ℝ), sL[k]? = some x → μ k x = l x := by
    intro k x hk
    obtain ⟨hkl, hkx⟩ := List.getElem?_eq_some_iff.mp hk
    have := congrFun (Except.ok.inj ((hmean _ (rows sL)).symm.trans hint)) ⟨k, hkl⟩
    simpa [rows, column, hkx] using this
  set yh := column (sH.map g) hlen.1 with hyh
  set f : Fin sH.length → ℝ := fun k => μ k (rows sH k) with hf
  have gi : yh ⟨i, pi⟩ = g x := by simp [hyh, column, ei]
  have gj : yh ⟨j, pj⟩ = g y := by simp [hyh, column, ej]
  have gk : yh ⟨k, pk⟩ = g z := by simp [hyh, column, ek]
  have li : f ⟨i, pi⟩ = l x := by simp [hf, rows, ei, hval _ _ jx]
  have lj : f ⟨j, pj⟩ = l y := by simp [hf, rows, ej, hval _ _ jy]
  have lk : f ⟨k, pk⟩ = l z := by simp [hf, rows, ek, hval _ _ jz]
  have hgdiff : ∃ a c, yh a ≠ yh c := by
    by_cases e : g y = g x
    · by_cases e' : g z = g x
      · exact absurd (by rw [e, e']; ring) hne
      · exact ⟨⟨k, pk⟩, ⟨i, pi⟩, by rw [gi, gk]; exact e'⟩
    · exact ⟨⟨j, pj⟩, ⟨i, pi⟩, by rw [gi, gj]; exact e⟩
  obtain ⟨a', c', hac'⟩ := hgdiff
  have hf0 : ∃ k0, f k0 ≠ GP.mean yh := by
    by_contra hc
    push Not at hc
    have e1 := hc ⟨i, pi⟩; have e2 := hc ⟨j, pj⟩; have e3 := hc ⟨k, pk⟩
    rw [li] at e1; rw [lj] at e2; rw [lk] at e3
    exact hne (by rw [e1, e2, e3]; ring)
  obtain ⟨k0, hk0⟩ := hf0
  have htrain : ∃ hk' t, hk.train { lf := (o.world hk.lf.kernel w).1, hf := (o.world hk.kernel (o.world hk.lf.kernel w).2).1 } (rows sH) yh (rows sL) (column (sL.map l) hlen.2) = .ok (hk', t) := by
    rw [hk_train_startsNoise hnoise _ [fun _ => 0]]
    refine C41_hk_train_succeeds hk _ (rows sH) yh (rows sL) (column (sL.map l) hlen.2) (by rw [hbox]; exact hb) (by rw [hlow, hhigh]; norm_num) ho.mini ?_ (hst _ _) (by simp) a' c' hac' lf' lfFit htl
      f (hmean _ _) k0 hk0 ?_
    · intro run hr; rw [hopt] at hr; cases hr
    · intro _ q
      by_contra hc
      push Not at hc
      have e1 := hc ⟨i, pi⟩; have e2 := hc ⟨j, pj⟩; have e3 := hc ⟨k, pk⟩
      rw [li, gi] at e1; rw [lj, gj] at e2; rw [lk, gk] at e3
      apply hne
      have e4 : g z - g x = q * (l z - l x) := by linarith
      have e5 : g y - g x = q * (l y - l x) := by linarith
      rw [e4, e5]; ring
  obtain ⟨hk', t, htrain⟩ := htrain
  refine ⟨(.hk hk' (some ⟨_, _, t⟩), (o.world hk.kernel (o.world hk.lf.kernel w).2).2), ?_⟩
  unfold MFModel.train
  rw [dif_pos hlen]
  exact Py.bind_ok.mpr ⟨_, htrain, rfl⟩

/-- C111 (hierarchical Kriging with `VFEI` or `VFLCB`). If three samples of a state are shared by the fidelities, in the same rows, and the pairs of their responses do not lie on a line, every later
`run_optimizer` returns. -/
theorem C111_hk_succeeds (o : Outside d) (ho : Lawful o) (hd : 0 < d) (b : Box ℝ d) (hb : ∀ j, b.low j < b.high j) {hf lf : List (Fin d → ℝ) → Py (List ℝ)} {g l : (Fin d → ℝ) → ℝ}
    (hg : Rowwise hf g) (hl : Rowwise lf l) (optimum : Option ℝ) {query : MFQuery o.env.S d} (hq : query = vfeiQuery none o.de ∨ ∃ κ, query = vflcbQuery κ none o.de) (seed : ℕ)
    {s : MFState ℝ (Fin d → ℝ) (MFModel d) (o.env.S × List ℕ)} (h : MFReachable (mfBO o b hf lf optimum query "HierarchicalKriging" seed) s)
    (hshared : SharedTriple s.sampleH s.sampleL g l) (maxIter : ℕ) (cr stop : ℝ) :
    ∃ s', (mfBO o b hf lf optimum query "HierarchicalKriging" seed).run maxIter cr stop s = .ok s' := by
  set p := mfBO o b hf lf optimum query "HierarchicalKriging" seed with hp
  have hw : WorksWith o.de "HierarchicalKriging" query := by
    rcases hq with h | h
    · exact Or.inl ⟨rfl, h⟩
    · exact Or.inr ⟨Or.inl rfl, h⟩
  cases hr : p.run maxIter cr stop s with
  | ok s' => exact ⟨s', rfl⟩
  | error e =>
    exfalso
    obtain ⟨k, s', x, w, hk, hrun, _, htrain⟩ := C111_mf_raises_in_training o ho hd b hb hg hl optimum hw seed h maxIter cr stop e hr
    have hreach : MFReachable p s' := .run k cr stop h hrun
    have hsh : SharedTriple s'.sampleH s'.sampleL g l := by
      refine mf_loop_inv (fun s => SharedTriple s.sampleH s.sampleL g l) ?_ stop k _ _ hshared hrun
      intro s s' i1 hit
      obtain ⟨x, fid, w1, y, _, _, h3, _⟩ := mf_iterate_steps hit
      rcases h3 with ⟨_, _, e1, e2, _⟩ | ⟨_, _, e1, e2, _⟩
      · rw [e1, e2]
        have := i1.append [x] []
        rwa [List.append_nil] at this
      · rw [e1, e2]
        have := i1.append [] [x]
        rwa [List.append_nil] at this
    obtain ⟨hU, _, hH, _⟩ := mf_ready hb (Or.inl rfl) hreach
    obtain ⟨hkm, t0, hm⟩ := hH rfl
    have hu := mf_hkUsual hreach
    rw [hm] at hU hu htrain
    obtain ⟨eH, eL, _⟩ := C90_mf_responses o b hg hl optimum _ _ seed hreach
    rcases htrain with ht | ht
    · have hsh' := hsh.append [x] []
      rw [List.append_nil] at hsh'
      obtain ⟨r, hr'⟩ := hk_train_shared ho hb hU hu hsh' w
      rw [eH, eL, show s'.sampleH.map g ++ [g x] = (s'.sampleH ++ [x]).map g by simp, hr'] at ht
      cases ht
    · have hsh' := hsh.append [] [x]
      rw [List.append_nil] at hsh'
      obtain ⟨r, hr'⟩ := hk_train_shared ho hb hU hu hsh' w
      rw [eH, eL, show s'.sampleL.map l ++ [l x] = (s'.sampleL ++ [x]).map l by simp, hr'] at ht
      cases ht

/-! ### The first samples -/

theorem mf_new_succeeds {o : Outside d} {b : Box ℝ d} {hf lf : List (Fin d → ℝ) → Py (List ℝ)} {g l : (Fin d → ℝ) → ℝ} (hg : Rowwise hf g) (hl : Rowwise lf l) (optimum : Option ℝ)
    (query : MFQuery o.env.S d) {name : String} {seed : ℕ} {w w1 : o.env.S × List ℕ} {xH xL : List (Fin d → ℝ)} (hinit : mfInit o b seed w = .ok ((xH, xL), w1)) (hne : xH ≠ [])
    {su : MFModel d} (hsu : freshMF b name = .ok su) {r : MFModel d × o.env.S} (htrain : su.train o (xH, xL) (xH.map g, xL.map l) w1.1 = .ok r) :
    ∃ s, (mfBO o b hf lf optimum query name seed).new w = .ok s ∧ s.sampleH = xH ∧ s.sampleL = xL := by
  have hne' : xH.map g ≠ [] := by simpa using hne
  obtain ⟨mn, hm⟩ := npMin_succeeds hne'
  obtain ⟨i, hi⟩ := npArgmin_succeeds hne'
  have hat := npArgmin_at hm hi
  rw [List.getElem?_map] at hat
  obtain ⟨bx, hbx, _⟩ := Option.map_eq_some_iff.mp hat
  exact ⟨_, Py.bind_ok.mpr ⟨_, hinit, Py.bind_ok.mpr ⟨(xH.map g, xL.map l), Py.bind_ok.mpr ⟨_, hg xH, Py.bind_ok.mpr ⟨_, hl xL, rfl⟩⟩, Py.bind_ok.mpr ⟨_, hsu,
    Py.bind_ok.mpr ⟨(r.1, (r.2, w1.2)), Py.bind_ok.mpr ⟨_, htrain, rfl⟩, Py.bind_ok.mpr ⟨_, hm, Py.bind_ok.mpr ⟨_, hi, Py.bind_ok.mpr ⟨_, npRow_ok.mpr hbx, rfl⟩⟩⟩⟩⟩⟩⟩, rfl, rfl⟩

theorem SharedTriple.ne {sH sL : List (Fin d → ℝ)} {g l : (Fin d → ℝ) → ℝ} (h : SharedTriple sH sL g l) : sH ≠ [] := by
  obtain ⟨i, _, _, x, _, _, ⟨h1, _⟩, _⟩ := h
  rintro rfl
  cases h1

/-- C111 (construction). If the sampler gives both fidelities three samples in the same rows, with pairs of responses that do not lie on a line, then with hierarchical Kriging the constructor returns, and so does every
`run_optimizer` after it. -/
theorem C111_hk_new_succeeds (o : Outside d) (ho : Lawful o) (hd : 0 < d) (b : Box ℝ d) (hb : ∀ j, b.low j < b.high j) {hf lf : List (Fin d → ℝ) → Py (List ℝ)} {g l : (Fin d → ℝ) → ℝ}
    (hg : Rowwise hf g) (hl : Rowwise lf l) (optimum : Option ℝ) {query : MFQuery o.env.S d} (hq : query = vfeiQuery none o.de ∨ ∃ κ, query = vflcbQuery κ none o.de) (seed : ℕ)
    {w w1 : o.env.S × List ℕ} {xH xL : List (Fin d → ℝ)} (hinit : mfInit o b seed w = .ok ((xH, xL), w1)) (hshared : SharedTriple xH xL g l) :
    ∃ s, (mfBO o b hf lf optimum query "HierarchicalKriging" seed).new w = .ok s ∧
      ∀ (maxIter : ℕ) (cr stop : ℝ), ∃ s', (mfBO o b hf lf optimum query "HierarchicalKriging" seed).run maxIter cr stop s = .ok s' := by
  have hsu : freshMF b "HierarchicalKriging" = .ok (.hk { box := b, kernel := RBF.mk' (fun _ => 0) (-2) 3, optimizer := none, noise := some 0, lf := freshGP b } none) := by
    unfold freshMF
    rw [if_pos rfl]
  obtain ⟨r, hr⟩ := hk_train_shared ho hb (freshMF_ok hsu).1 ⟨rfl, rfl, rfl⟩ hshared w1.1
  obtain ⟨s, hs, e1, e2⟩ := mf_new_succeeds hg hl optimum query hinit hshared.ne hsu hr
  exact ⟨s, hs, fun maxIter cr stop => C111_hk_succeeds o ho hd b hb hg hl optimum hq seed (.new w hs) (by rw [e1, e2]; exact hshared) maxIter cr stop⟩

/-- C111 (construction, scaled Kriging with `VFLCB`). If the sampler gives both fidelities two samples in the same rows, at which the fidelities differ by different amounts, and the low-fidelity responses are not all
equal, the constructor returns, and so does every `run_optimizer` after it. -/
theorem C111_sk_new_succeeds (o : Outside d) (ho : Lawful o) (hd : 0 < d) (b : Box ℝ d) (hb : ∀ j, b.low j < b.high j) {hf lf : List (Fin d → ℝ) → Py (List ℝ)} {g l : (Fin d → ℝ) → ℝ}
    (hg : Rowwise hf g) (hl : Rowwise lf l) (optimum : Option ℝ) (κ : ℝ × ℝ) (seed : ℕ)
    {w w1 : o.env.S × List ℕ} {xH xL : List (Fin d → ℝ)} (hinit : mfInit o b seed w = .ok ((xH, xL), w1)) (hshared : SharedRows xH xL g l) (hvary : ∃ x ∈ xL, ∃ x' ∈ xL, l x ≠ l x') :
    ∃ s, (mfBO o b hf lf optimum (vflcbQuery κ none o.de) "ScaledKriging" seed).new w = .ok s ∧
      ∀ (maxIter : ℕ) (cr stop : ℝ), ∃ s', (mfBO o b hf lf optimum (vflcbQuery κ none o.de) "ScaledKriging" seed).run maxIter cr stop s = .ok s' := by
  have hsu : freshMF b "ScaledKriging" = .ok (.sk (SKObj.new b (freshGP b) (freshGP b) false .error 1e-2 1e1 none) none) := by
    unfold freshMF
    rw [if_neg (by decide), if_pos rfl]
  obtain ⟨x, hx, x', hx', hne⟩ := hvary
  obtain ⟨r, hr⟩ := sk_train_shared ho hb (freshMF_ok hsu).1 hshared ⟨l x, List.mem_map_of_mem hx, l x', List.mem_map_of_mem hx', hne⟩ w1.1
  obtain ⟨s, hs, e1, e2⟩ := mf_new_succeeds hg hl optimum (vflcbQuery κ none o.de) hinit (by
    obtain ⟨i, _, x, _, h1, _⟩ := hshared
    rintro rfl
    cases h1) hsu hr
  exact ⟨s, hs, fun maxIter cr stop => C111_sk_succeeds o ho hd b hb hg hl optimum κ seed (.new w hs) (by rw [e1, e2]; exact hshared) maxIter cr stop⟩

/-! ## The hypotheses are met -/

theorem exShared : SharedTriple (Sampling.mfScale exInterval ((List.range 3).map (fun i : ℕ => fun _ => ((i : ℝ) + 1) / (3 : ℕ))))
    (Sampling.mfScale exInterval ((List.range 3).map (fun i : ℕ => fun _ => ((i : ℝ) + 1) / (3 : ℕ)))) (fun x => x 0 ^ 2) (fun x => x 0) := by
  have hx : Sampling.mfScale exInterval ((List.range 3).map (fun i : ℕ => fun _ => ((i : ℝ) + 1) / (3 : ℕ))) = [fun _ => 1 / 3, fun _ => 2 / 3, fun _ => 1] := by
    simp [Sampling.mfScale, List.range_succ, exInterval]
    norm_num
  rw [hx]
  exact ⟨0, 1, 2, _, _, _, ⟨rfl, rfl⟩, ⟨rfl, rfl⟩, ⟨rfl, rfl⟩, by norm_num⟩

/-- Hierarchical Kriging with `VFEI` on `x²` (high fidelity) and `x` (low fidelity), three samples of each: every run returns. -/
theorem exHKRun : ∃ s, (mfBO (exOutside 1) exInterval (fun xs => .ok (xs.map fun x => x 0 ^ 2)) (fun xs => .ok (xs.map fun x => x 0)) none (vfeiQuery none (exOutside 1).de)
      "HierarchicalKriging" 1996).new ((0 : ℕ), [3, 3]) = .ok s ∧
    ∀ (maxIter : ℕ) (cr stop : ℝ), ∃ s', (mfBO (exOutside 1) exInterval (fun xs => .ok (xs.map fun x => x 0 ^ 2)) (fun xs => .ok (xs.map fun x => x 0)) none (vfeiQuery none (exOutside 1).de)
      "HierarchicalKriging" 1996).run maxIter cr stop s = .ok s' :=
  C111_hk_new_succeeds (exOutside 1) (exOutside_lawful 1) Nat.one_pos exInterval (fun _ => by simp [exInterval]) (fun _ => rfl) (fun _ => rfl) none (Or.inl rfl) 1996 (xH := Sampling.mfScale exInterval ((List.range 3).map (fun i : ℕ => fun _ => ((i : ℝ) + 1) / (3 : ℕ)))) (w1 := ((1996 : ℕ), [])) rfl exShared

/-- Scaled Kriging with `VFLCB` on the same problem. -/
theorem exSKRun : ∃ s, (mfBO (exOutside 1) exInterval (fun xs => .ok (xs.map fun x => x 0 ^ 2)) (fun xs => .ok (xs.map fun x => x 0)) none (vflcbQuery (1, 1) none (exOutside 1).de)
      "ScaledKriging" 1996).new ((0 : ℕ), [3, 3]) = .ok s ∧
    ∀ (maxIter : ℕ) (cr stop : ℝ), ∃ s', (mfBO (exOutside 1) exInterval (fun xs => .ok (xs.map fun x => x 0 ^ 2)) (fun xs => .ok (xs.map fun x => x 0)) none (vflcbQuery (1, 1) none (exOutside 1).de)
      "ScaledKriging" 1996).run maxIter cr stop s = .ok s' := by
  have hx : Sampling.mfScale exInterval ((List.range 3).map (fun i : ℕ => fun _ => ((i : ℝ) + 1) / (3 : ℕ))) = [fun _ => 1 / 3, fun _ => 2 / 3, fun _ => 1] := by
    simp [Sampling.mfScale, List.range_succ, exInterval]
    norm_num
  refine C111_sk_new_succeeds (exOutside 1) (exOutside_lawful 1) Nat.one_pos exInterval (fun _ => by simp [exInterval]) (fun _ => rfl) (fun _ => rfl) none (1, 1) 1996 (xH := Sampling.mfScale exInterval ((List.range 3).map (fun i : ℕ => fun _ => ((i : ℝ) + 1) / (3 : ℕ)))) (w1 := ((1996 : ℕ), [])) rfl ?_ ?_
  · rw [hx]
    exact ⟨0, 2, _, _, rfl, rfl, rfl, rfl, by norm_num⟩
  · rw [hx]
    exact ⟨fun _ => 1 / 3, by simp, fun _ => 1, by simp, by norm_num⟩

/-- `C111_sk_vfei_fails` is about a state that exists: the one of `exMF_reachable`, on which a run with `stopping_error = 1/2` fails. -/
example : ∃ s, MFReachable (mfBO (exOutside 1) exInterval (fun xs => .ok (xs.map fun x => 2 * x 0)) (fun xs => .ok (xs.map fun x => x 0)) none (vfeiQuery none (exOutside 1).de) "ScaledKriging" 1996) s ∧
    ∃ e, (mfBO (exOutside 1) exInterval (fun xs => .ok (xs.map fun x => 2 * x 0)) (fun xs => .ok (xs.map fun x => x 0)) none (vfeiQuery none (exOutside 1).de) "ScaledKriging" 1996).run 1 1 (1 / 2) s = .error e := by
  obtain ⟨s, hs⟩ := exMF_reachable
  refine ⟨s, .new _ hs, C111_sk_vfei_fails (exOutside 1) (exOutside_lawful 1) exInterval (fun _ => by simp [exInterval]) _ _ none 1996 (.new _ hs) 1 one_pos 1 (1 / 2) ?_⟩
  simp [optimumError]
  norm_num

end Mfpml.Props
