import Verif.Lemmas.Acquisitions
import Verif.Props.MFKriging

/-!
# C60 – C67, C80 – C82: acquisition functions

Vocabulary: `Verif/Spec/Acquisitions.lean`.  `expectedImprovement`, `probAtMost` are integrals over the normal distribution, not the closed formulas of the code.
-/

set_option linter.unusedSectionVars false

open MeasureTheory ProbabilityTheory Set

namespace Mfpml.Props

open Mfpml Mfpml.Acq Mfpml.GP Mfpml.Spec
open Mfpml.EA (Box)
open Mfpml.BO (npMin npMin_isLeast MFProblem MFState)

/-! ## The library's surrogates meet the assumptions -/

/-- A trained GP never reports a negative standard deviation. -/
theorem ofGP_nonneg {n d q : ℕ} (gp : GPObj d q) (t : GPFit n d q) : SFNonneg (SFSurr.ofGP gp t) := by
  intro m X mean std h j
  simp only [SFSurr.ofGP, GP.predictStd] at h
  obtain ⟨_, _, h⟩ := Py.bind_ok.mp h
  obtain ⟨_, _, h⟩ := Py.bind_ok.mp h
  obtain ⟨_, _, h⟩ := Py.bind_ok.mp h
  cases h
  exact Real.sqrt_nonneg _

theorem predictStd_nonneg {n d q m : ℕ} {gp : GPObj d q} {t : GPFit n d q} {X : Samples m d} {mean std : Fin m → ℝ} (h : GP.predictStd gp t X = .ok (mean, std)) (j : Fin m) : 0 ≤ std j :=
  ofGP_nonneg gp t m X mean std h j

/-- The same for hierarchical Kriging, both fidelities. -/
theorem ofHK_nonneg {nh nl d q : ℕ} (hk : HKObj d q) (t : HKFit nh nl d q) : MFNonneg (MFSurr.ofHK hk t) := by
  refine ⟨?_, fun m X mean std h j => predictStd_nonneg h j⟩
  intro m X mean std h j
  simp only [MFSurr.ofHK, HKObj.predictStd] at h
  obtain ⟨_, _, h⟩ := Py.bind_ok.mp h
  obtain ⟨_, _, h⟩ := Py.bind_ok.mp h
  obtain ⟨_, _, h⟩ := Py.bind_ok.mp h
  obtain ⟨_, _, h⟩ := Py.bind_ok.mp h
  cases h
  exact Real.sqrt_nonneg _

/-- The same for scaled Kriging. -/
theorem ofSK_nonneg {nh nl d ql qd : ℕ} (sk : SKObj d ql qd) (t : SKFit nh nl d ql qd) : MFNonneg (MFSurr.ofSK sk t) := by
  refine ⟨?_, fun m X mean std h j => predictStd_nonneg h j⟩
  intro m X mean std h j
  simp only [MFSurr.ofSK, SKObj.predictStd] at h
  obtain ⟨_, _, h⟩ := Py.bind_ok.mp h
  obtain ⟨_, _, h⟩ := Py.bind_ok.mp h
  cases h
  exact Real.sqrt_nonneg _

/-- A surrogate with the same prediction everywhere, for examples. -/
noncomputable def constSurr (fmin mean std : ℝ) : SFSurr 1 :=
  { bounds := ⟨fun _ => 0, fun _ => 1⟩, sampleY := [fmin], predict := fun _ _ => .ok (fun _ => mean, fun _ => std) }

theorem constSurr_nonneg (fmin mean : ℝ) {std : ℝ} (h : 0 ≤ std) : SFNonneg (constSurr fmin mean std) := by
  intro m X me st e j
  cases e
  exact h

/-! ## C62: expected improvement -/

/-- What `EI.eval` computes: up to 2e-9 it is minus the expected improvement over the smallest training response; in particular the improvement is at least `-1e-9`, and it is
non-negative wherever the predicted mean does not exceed the incumbent.  (Full claim: non-negative everywhere; see `C62_counterexample`.) -/
theorem C62_ei_partial {d m : ℕ} {s : SFSurr d} (hs : SFNonneg s) {x : Samples m d} {v : Fin m → ℝ} (h : eiEval s x = .ok v) :
    ∃ fmin mean std, IsLeast {y | y ∈ s.sampleY} fmin ∧ s.predict m x = .ok (mean, std) ∧
      ∀ j, |(-v j) - expectedImprovement fmin (mean j) (std j)| ≤ 2e-9 ∧ -1e-9 ≤ -v j ∧ (mean j ≤ fmin → 0 ≤ -v j) := by
  unfold eiEval at h
  obtain ⟨fmin, hm, h⟩ := Py.bind_ok.mp h
  obtain ⟨⟨mean, std⟩, hp, h⟩ := Py.bind_ok.mp h
  cases h
  refine ⟨fmin, mean, std, npMin_isLeast hm, hp, fun j => ?_⟩
  have hσ := hs m x mean std hp j
  simp only [neg_neg, eiFormula]
  refine ⟨?_, ?_, ?_⟩
  · refine (regularised_ei_near fmin (mean j) hσ tiny9_pos).trans ?_
    norm_num [tiny9]
  · refine le_trans ?_ (regularised_ei_lower fmin (mean j) hσ tiny9_pos)
    norm_num [tiny9]
  · intro hle
    exact add_nonneg (mul_nonneg (by linarith) (normCdf_nonneg _)) (mul_nonneg hσ (normPdf_pos _).le)

/-- The hypotheses of `C62_ei_partial` are met: every trained GP qualifies, and the evaluation succeeds on a concrete surrogate. -/
example : SFNonneg (constSurr 0 1 2) ∧ ∃ v, eiEval (constSurr 0 1 2) (fun (_ : Fin 3) _ => 0) = .ok v :=
  ⟨constSurr_nonneg 0 1 (by norm_num), _, rfl⟩

/-- The expected improvement computed by `EI.eval` is not always non-negative: whatever the incumbent and the standard deviation, it is negative when the predicted mean is far enough above the
incumbent, because `1e-9` is added to the standard deviation in the argument of `cdf` and `pdf` but not in the factor. -/
theorem C62_counterexample (fmin : ℝ) {std : ℝ} (hstd : 0 ≤ std) :
    ∃ mean v, eiEval (constSurr fmin mean std) (fun (_ : Fin 1) _ => 0) = .ok v ∧ -v 0 < 0 := by
  obtain ⟨mean, h⟩ := regularised_ei_neg hstd tiny9_pos fmin
  exact ⟨mean, _, rfl, by simpa [eiFormula] using h⟩

/-! ## C63: probability of improvement -/

/-- `-PI.eval` is the probability that a normal variable with the predicted mean and the predicted standard deviation plus 1e-9 does not exceed the smallest training response; it lies strictly between 0 and
1, and it is 1/2 exactly when the predicted mean equals the incumbent. -/
theorem C63_pi {d m : ℕ} {s : SFSurr d} (hs : SFNonneg s) {x : Samples m d} {v : Fin m → ℝ} (h : piEval s x = .ok v) :
    ∃ fmin mean std, IsLeast {y | y ∈ s.sampleY} fmin ∧ s.predict m x = .ok (mean, std) ∧
      ∀ j, -v j = probAtMost fmin (mean j) (std j + 1e-9) ∧ 0 < -v j ∧ -v j < 1 ∧ (-v j = 1 / 2 ↔ mean j = fmin) := by
  unfold piEval at h
  obtain ⟨fmin, hm, h⟩ := Py.bind_ok.mp h
  obtain ⟨⟨mean, std⟩, hp, h⟩ := Py.bind_ok.mp h
  cases h
  refine ⟨fmin, mean, std, npMin_isLeast hm, hp, fun j => ?_⟩
  have hσ := hs m x mean std hp j
  have hpos : 0 < std j + tiny9 := by linarith [tiny9_pos]
  simp only [neg_neg]
  refine ⟨?_, normCdf_pos _, normCdf_lt_one _, ?_⟩
  · rw [show (1e-9 : ℝ) = tiny9 from rfl, probAtMost_eq _ _ hpos]
  · rw [← normCdf_zero, normCdf_strictMono.injective.eq_iff, div_eq_zero_iff]
    constructor
    · rintro (h | h) <;> linarith
    · intro h; left; linarith

/-- It grows with the incumbent and falls with the predicted mean: compare two surrogates that report the same standard deviation at a point. -/
theorem C63_pi_mono {d m : ℕ} {s s' : SFSurr d} (hs : SFNonneg s) {x x' : Samples m d} {v v' : Fin m → ℝ} (h : piEval s x = .ok v) (h' : piEval s' x' = .ok v')
    {fmin fmin' : ℝ} (hf : IsLeast {y | y ∈ s.sampleY} fmin) (hf' : IsLeast {y | y ∈ s'.sampleY} fmin') {mean std mean' std' : Fin m → ℝ}
    (hp : s.predict m x = .ok (mean, std)) (hp' : s'.predict m x' = .ok (mean', std')) {j : Fin m} (hstd : std' j = std j) :
    (fmin ≤ fmin' → mean' j ≤ mean j → -v j ≤ -v' j) ∧ (fmin < fmin' → mean' j ≤ mean j → -v j < -v' j) ∧ (fmin ≤ fmin' → mean' j < mean j → -v j < -v' j) := by
  unfold piEval at h h'
  obtain ⟨f, hm, h⟩ := Py.bind_ok.mp h
  obtain ⟨f', hm', h'⟩ := Py.bind_ok.mp h'
  have e1 := (npMin_isLeast hm).unique hf
  have e2 := (npMin_isLeast hm').unique hf'
  subst e1 e2
  rw [hp] at h
  rw [hp'] at h'
  cases h; cases h'
  have hσ := hs m x mean std hp j
  have hpos : 0 < std j + tiny9 := by linarith [tiny9_pos]
  simp only [neg_neg, hstd]
  refine ⟨fun a b => normCdf_mono ?_, fun a b => normCdf_strictMono ?_, fun a b => normCdf_strictMono ?_⟩
  · gcongr
  · exact div_lt_div_of_pos_right (by linarith) hpos
  · exact div_lt_div_of_pos_right (by linarith) hpos

/-- Both theorems apply to concrete surrogates. -/
example : ∃ v v', piEval (constSurr 0 1 2) (fun (_ : Fin 1) _ => 0) = .ok v ∧ piEval (constSurr 0 0 2) (fun (_ : Fin 1) _ => 0) = .ok v' ∧ -v 0 < -v' 0 ∧ -v' 0 = 1 / 2 := by
  refine ⟨_, _, rfl, rfl, ?_, ?_⟩
  · simp only [neg_neg]
    apply normCdf_strictMono
    have := tiny9_pos
    apply div_lt_div_of_pos_right <;> norm_num [tiny9]
  · simp [normCdf_zero]

/-! ## C64: lower confidence bounds -/

/-- `LCB.eval` is `κ₀·mean - κ₁·std`.  With `κ₀ = 1` it is the quantile of the predictive distribution whose level depends on `κ₁` only, and with `κ₁ ≥ 0` it falls when the standard deviation grows. -/
theorem C64_lcb {d m : ℕ} {s : SFSurr d} {kappa : ℝ × ℝ} {x : Samples m d} {v : Fin m → ℝ} (h : lcbEval kappa s x = .ok v) :
    ∃ mean std, s.predict m x = .ok (mean, std) ∧ ∀ j, v j = kappa.1 * mean j - kappa.2 * std j ∧
      (kappa.1 = 1 → 0 < std j → probAtMost (v j) (mean j) (std j) = probAtMost (-kappa.2) 0 1) ∧
      (0 ≤ kappa.2 → ∀ {s' : SFSurr d} {x' : Samples m d} {v' mean' std' : Fin m → ℝ}, s'.predict m x' = .ok (mean', std') → lcbEval kappa s' x' = .ok v' → mean' j = mean j →
        std j ≤ std' j → v' j ≤ v j) := by
  unfold lcbEval at h
  obtain ⟨⟨mean, std⟩, hp, h⟩ := Py.bind_ok.mp h
  cases h
  refine ⟨mean, std, hp, fun j => ⟨rfl, ?_, ?_⟩⟩
  · intro hk hpos
    rw [probAtMost_eq _ _ hpos, probAtMost_eq _ _ one_pos, hk]
    congr 1
    field_simp
    ring
  · intro hk s' x' v' mean' std' hp' h' hme hst
    unfold lcbEval at h'
    rw [hp'] at h'
    cases h'
    simp only [hme]
    nlinarith

/-- `C64_lcb` applies to a concrete surrogate (the defaults `κ = (1, 1.96)`). -/
example : lcbEval (1, 1.96) (constSurr 0 1 2) (fun (_ : Fin 2) _ => 0) = .ok (fun _ => 1 * 1 - 1.96 * 2) := rfl

/-- `VFLCB.eval`: high-fidelity mean in both cases, with the high-fidelity standard deviation at fidelity 0 and the cost ratio times the low-fidelity standard deviation at fidelity 1. -/
theorem C64_vflcb {d m : ℕ} {s : MFSurr d} {kappa : ℝ × ℝ} {cr : ℝ} {fid : ℤ} {x : Samples m d} {v : Fin m → ℝ} (h : vflcbEval kappa s cr fid x = .ok v) :
    ∃ mean std meanL stdL, s.predictStd m x = .ok (mean, std) ∧ s.predictLfStd m x = .ok (meanL, stdL) ∧
      ((fid = 0 ∧ ∀ j, v j = kappa.1 * mean j - kappa.2 * std j ∧ (kappa.1 = 1 → 0 < std j → probAtMost (v j) (mean j) (std j) = probAtMost (-kappa.2) 0 1)) ∨
        (fid = 1 ∧ ∀ j, v j = kappa.1 * mean j - kappa.2 * (cr * stdL j))) := by
  unfold vflcbEval at h
  obtain ⟨⟨mean, std⟩, hp, h⟩ := Py.bind_ok.mp h
  obtain ⟨⟨meanL, stdL⟩, hl, h⟩ := Py.bind_ok.mp h
  refine ⟨mean, std, meanL, stdL, hp, hl, ?_⟩
  simp only at h
  split_ifs at h with h0 h1
  · cases h
    refine Or.inl ⟨h0, fun j => ⟨rfl, fun hk hpos => ?_⟩⟩
    rw [probAtMost_eq _ _ hpos, probAtMost_eq _ _ one_pos, hk]
    congr 1
    field_simp
    ring
  · cases h
    exact Or.inr ⟨h1, fun j => by ring⟩

/-- A multi-fidelity surrogate with constant predictions, for examples. -/
noncomputable def constMF (isHK : Bool) (mean std meanL stdL beta : ℝ) : MFSurr 1 :=
  { isHK := isHK, bound := .ok ⟨fun _ => 0, fun _ => 1⟩, predict := fun _ _ => .ok fun _ => mean, predictStd := fun _ _ => .ok (fun _ => mean, fun _ => std),
    predictLfStd := fun _ _ => .ok (fun _ => meanL, fun _ => stdL), numH := 1, sampleH := fun _ _ => 0, numL := 1, sampleL := fun _ _ => 1, beta := .ok beta,
    evalCorr := fun _ _ _ _ fid => if fid = 0 ∨ fid = 1 then .ok (some (Matrix.of fun _ _ => 1 / 2)) else .ok none }

theorem constMF_nonneg (b : Bool) (mean meanL beta : ℝ) {std stdL : ℝ} (h : 0 ≤ std) (hl : 0 ≤ stdL) : MFNonneg (constMF b mean std meanL stdL beta) := by
  constructor
  · intro m X me st e j; cases e; exact h
  · intro m X me st e j; cases e; exact hl

/-- `C64_vflcb` applies at both fidelities. -/
example : vflcbEval (1, 2) (constMF true 3 1 5 4 1) (1 / 2) 0 (fun (_ : Fin 2) _ => 0) = .ok (fun _ => 1 * 3 - 2 * 1) ∧
    vflcbEval (1, 2) (constMF true 3 1 5 4 1) (1 / 2) 1 (fun (_ : Fin 2) _ => 0) = .ok (fun _ => 1 * 3 - 2 * (4 * (1 / 2))) := ⟨rfl, rfl⟩

/-! ## C65: constrained expected improvement -/

theorem pofColumns_ok {d m : ℕ} {x : Samples m d} : ∀ {cons : List (SFSurr d)} {ps : List ((Fin m → ℝ) × (Fin m → ℝ))}, pofColumns x cons = .ok ps →
    List.Forall₂ (fun s p => s.predict m x = .ok p) cons ps
  | [], ps, h => by cases h; exact .nil
  | s :: rest, ps, h => by
    unfold pofColumns at h
    obtain ⟨p, hp, h⟩ := Py.bind_ok.mp h
    split_ifs at h with hm
    obtain ⟨ps', hps, h⟩ := Py.bind_ok.mp h
    cases h
    exact .cons hp (pofColumns_ok hps)

/-- At a single point CEI is minus the product of an improvement within 2e-9 of the expected improvement and the probability of feasibility; the latter is the product over the constraints of the
probability that a normal variable with the predicted mean and standard deviation (plus 1e-9) is at most 0, and lies in [0, 1].  (Full claim: for batches as well; see `C65_counterexample`.) -/
theorem C65_cei_partial {d : ℕ} {obj : SFSurr d} {cons : List (SFSurr d)} (ho : SFNonneg obj) (hc : ∀ s ∈ cons, SFNonneg s) {x : Fin d → ℝ} {v : Fin 1 → Fin 1 → ℝ}
    (h : ceiEval obj cons (onePoint x) = .ok v) :
    ∃ fmin mean std ps ei pof, IsLeast {y | y ∈ obj.sampleY} fmin ∧ obj.predict 1 (onePoint x) = .ok (mean, std) ∧
      List.Forall₂ (fun s p => s.predict 1 (onePoint x) = .ok p) cons ps ∧ v 0 0 = -(ei * pof) ∧
      |ei - expectedImprovement fmin (mean 0) (std 0)| ≤ 2e-9 ∧ pof = (ps.map fun p => probAtMost 0 (p.1 0) (p.2 0 + 1e-9)).prod ∧ 0 ≤ pof ∧ pof ≤ 1 := by
  unfold ceiEval at h
  obtain ⟨ei, he, h⟩ := Py.bind_ok.mp h
  obtain ⟨pof, hpf, h⟩ := Py.bind_ok.mp h
  cases h
  unfold ceiEi at he
  obtain ⟨fmin, hm, he⟩ := Py.bind_ok.mp he
  obtain ⟨⟨mean, std⟩, hp, he⟩ := Py.bind_ok.mp he
  cases he
  unfold ceiPof at hpf
  obtain ⟨ps, hps, hpf⟩ := Py.bind_ok.mp hpf
  cases hpf
  have hf := pofColumns_ok hps
  have hprod : ∀ (cs : List (SFSurr d)) (qs : List ((Fin 1 → ℝ) × (Fin 1 → ℝ))), (∀ s ∈ cs, SFNonneg s) → List.Forall₂ (fun s p => s.predict 1 (onePoint x) = .ok p) cs qs →
      (qs.map fun p => normCdf (0 - p.1 0 / (p.2 0 + tiny9))).prod = (qs.map fun p => probAtMost 0 (p.1 0) (p.2 0 + 1e-9)).prod := by
    intro cs qs hcs hq
    induction hq with
    | nil => rfl
    | @cons s p cs qs h1 _ ih =>
      have hσ := hcs s (by simp) 1 _ p.1 p.2 h1 0
      have hpos : 0 < p.2 0 + tiny9 := by linarith [tiny9_pos]
      rw [List.map_cons, List.prod_cons, List.map_cons, List.prod_cons, ih fun s hs => hcs s (List.mem_cons_of_mem _ hs), show (1e-9 : ℝ) = tiny9 from rfl, probAtMost_eq _ _ hpos]
      congr 2
      ring
  have h01 : ∀ qs : List ((Fin 1 → ℝ) × (Fin 1 → ℝ)), 0 ≤ (qs.map fun p => probAtMost 0 (p.1 0) (p.2 0 + 1e-9)).prod ∧ (qs.map fun p => probAtMost 0 (p.1 0) (p.2 0 + 1e-9)).prod ≤ 1 := by
    intro qs
    have hb : ∀ a μ σ, 0 ≤ probAtMost a μ σ ∧ probAtMost a μ σ ≤ 1 := by
      intro a μ σ
      have : IsProbabilityMeasure (normalLaw μ σ) := by unfold normalLaw; infer_instance
      exact ⟨measureReal_nonneg, measureReal_le_one⟩
    induction qs with
    | nil => simp
    | cons p qs ih =>
      rw [List.map_cons, List.prod_cons]
      exact ⟨mul_nonneg (hb _ _ _).1 ih.1, mul_le_one₀ (hb _ _ _).2 ih.1 ih.2⟩
  refine ⟨fmin, mean, std, ps, eiFormula fmin (mean 0) (std 0), _, npMin_isLeast hm, hp, hf, ?_, ?_, rfl, (h01 ps).1, (h01 ps).2⟩
  · simp only [hprod cons ps hc hf]
    ring
  · refine (regularised_ei_near fmin (mean 0) (ho 1 _ mean std hp 0) tiny9_pos).trans ?_
    norm_num [tiny9]

/-- The probability of feasibility falls when the predicted mean of a constraint grows (all other predictions unchanged). -/
theorem C65_pof_mono {d : ℕ} {pre post : List (SFSurr d)} {s s' : SFSurr d} (hs : SFNonneg s) {x x' : Fin d → ℝ} {v v' : Fin 1 → ℝ}
    (h : ceiPof (pre ++ s :: post) (onePoint x) = .ok v) (h' : ceiPof (pre ++ s' :: post) (onePoint x') = .ok v')
    (hsame : ∀ c ∈ pre ++ post, c.predict 1 (onePoint x') = c.predict 1 (onePoint x)) {mean std mean' std' : Fin 1 → ℝ} (hp : s.predict 1 (onePoint x) = .ok (mean, std))
    (hp' : s'.predict 1 (onePoint x') = .ok (mean', std')) (hstd : std' 0 = std 0) (hle : mean 0 < mean' 0) : v' 0 < v 0 := by
  unfold ceiPof at h h'
  obtain ⟨ps, hps, h⟩ := Py.bind_ok.mp h
  obtain ⟨ps', hps', h'⟩ := Py.bind_ok.mp h'
  cases h; cases h'
  have hf := pofColumns_ok hps
  have hf' := pofColumns_ok hps'
  clear hps hps'
  have hpos : 0 < std 0 + tiny9 := by linarith [hs 1 _ mean std hp 0, tiny9_pos]
  have hprodpos : ∀ qs : List ((Fin 1 → ℝ) × (Fin 1 → ℝ)), 0 < (qs.map fun p => normCdf (0 - p.1 0 / (p.2 0 + tiny9))).prod := by
    intro qs
    induction qs with
    | nil => simp
    | cons q qs ih => rw [List.map_cons, List.prod_cons]; exact mul_pos (normCdf_pos _) ih
  have key : ∀ (pre : List (SFSurr d)) (ps ps' : List ((Fin 1 → ℝ) × (Fin 1 → ℝ))), (∀ c ∈ pre ++ post, c.predict 1 (onePoint x') = c.predict 1 (onePoint x)) →
      List.Forall₂ (fun s p => s.predict 1 (onePoint x) = .ok p) (pre ++ s :: post) ps → List.Forall₂ (fun s p => s.predict 1 (onePoint x') = .ok p) (pre ++ s' :: post) ps' →
      (ps'.map fun p => normCdf (0 - p.1 0 / (p.2 0 + tiny9))).prod < (ps.map fun p => normCdf (0 - p.1 0 / (p.2 0 + tiny9))).prod := by
   intro pre
   induction pre with
   | nil =>
    intro ps ps' hsame hf hf'
    cases hf with | cons h1 h2 => cases hf' with | cons h1' h2' =>
    rw [hp] at h1; rw [hp'] at h1'
    cases h1; cases h1'
    have hrest : ∀ (cs : List (SFSurr d)) (a b : List ((Fin 1 → ℝ) × (Fin 1 → ℝ))), (∀ c ∈ cs, c.predict 1 (onePoint x') = c.predict 1 (onePoint x)) →
        List.Forall₂ (fun s p => s.predict 1 (onePoint x) = .ok p) cs a → List.Forall₂ (fun s p => s.predict 1 (onePoint x') = .ok p) cs b → a = b := by
      intro cs a b hc ha
      induction ha generalizing b with
      | nil => intro hb; cases hb; rfl
      | cons e1 _ ih =>
        intro hb
        cases hb with | cons e2 e3 =>
        rw [hc _ (by simp), e1] at e2
        cases e2
        rw [ih _ (fun c hcm => hc c (List.mem_cons_of_mem _ hcm)) e3]
    rw [hrest post _ _ (fun c hc => hsame c (by simpa using hc)) h2 h2']
    simp only [List.map_cons, List.prod_cons, hstd]
    apply mul_lt_mul_of_pos_right _ (hprodpos _)
    apply normCdf_strictMono
    have : mean 0 / (std 0 + tiny9) < mean' 0 / (std 0 + tiny9) := div_lt_div_of_pos_right hle hpos
    linarith
   | cons c pre ih =>
    intro ps ps' hsame hf hf'
    cases hf with | cons h1 h2 => cases hf' with | cons h1' h2' =>
    have e := hsame c (by simp)
    rw [h1, h1'] at e
    cases e
    simp only [List.map_cons, List.prod_cons]
    exact mul_lt_mul_of_pos_left (ih _ _ (fun c hc => hsame c (by simp only [List.cons_append, List.mem_cons]; exact Or.inr hc)) h2 h2') (normCdf_pos _)
  exact key pre ps ps' hsame hf hf'

/-- Two constraints: the evaluation succeeds at a point. -/
example : ∃ v, ceiEval (constSurr 0 1 2) [constSurr 0 1 1, constSurr 0 (-1) 1] (onePoint fun _ => 0) = .ok v := ⟨_, rfl⟩
example : ∃ v v', ceiPof [constSurr 0 1 1, constSurr 0 (-1) 1] (onePoint fun _ => 0) = .ok v ∧ ceiPof [constSurr 0 1 1, constSurr 0 (-2) 1] (onePoint fun _ => 0) = .ok v' ∧ v 0 < v' 0 := by
  refine ⟨_, _, rfl, rfl, ?_⟩
  exact C65_pof_mono (pre := [constSurr 0 1 1]) (post := []) (s := constSurr 0 (-2) 1) (s' := constSurr 0 (-1) 1) (constSurr_nonneg 0 (-2) zero_le_one) (x := fun _ => 0) (x' := fun _ => 0) rfl rfl
    (fun _ _ => rfl) (mean := fun _ => -2) (mean' := fun _ => -1) rfl rfl rfl (by norm_num)

/-- With at least one constraint, evaluating CEI on a batch of any size other than 1 raises `ValueError` (a column is assigned to a 1-d slice), whatever the surrogates. -/
theorem C65_counterexample {d m : ℕ} (hm : m ≠ 1) (obj c : SFSurr d) (cons : List (SFSurr d)) (x : Samples m d) {e : Fin m → ℝ} {p : (Fin m → ℝ) × (Fin m → ℝ)} (he : ceiEi obj x = .ok e)
    (hp : c.predict m x = .ok p) : ceiEval obj (c :: cons) x = .error .valueError := by
  simp only [ceiEval, ceiPof, pofColumns, he, hp, if_neg hm, bind, Except.bind]

/-- `C65_counterexample` applies: two points, one constraint. -/
example : ceiEval (constSurr 0 1 2) [constSurr 0 1 1] (fun (_ : Fin 2) _ => 0) = .error .valueError :=
  C65_counterexample (by norm_num) _ _ _ _ rfl rfl

/-! ## C66: augmented expected improvement -/

theorem aeiFormula_eq (fmin pre : ℝ) {std : ℝ} (h : ¬std < floatEps) : aeiFormula fmin pre std = expectedImprovement fmin pre std := by
  rw [aeiFormula, if_neg h, expectedImprovement_eq fmin pre (floatEps_pos.trans_le (not_lt.mp h))]

/-- The incumbent of augmented EI: the model's prediction at a training point (of either fidelity) at which mean plus standard deviation is smallest. -/
def EffectiveIncumbent {d : ℕ} (s : MFSurr d) (fmin : ℝ) : Prop :=
  ∃ mean std, s.predictStd (s.numH + s.numL) (Fin.append s.sampleH s.sampleL) = .ok (mean, std) ∧
    ∃ i : Fin (s.numH + s.numL), (∀ k, mean i + std i ≤ mean k + std k) ∧ ∃ r, s.predict 1 (onePoint (Fin.append s.sampleH s.sampleL i)) = .ok r ∧ r 0 = fmin

theorem effectiveBest_ok {d : ℕ} {s : MFSurr d} {xb : Fin d → ℝ} (h : effectiveBest s = .ok xb) :
    ∃ mean std, s.predictStd (s.numH + s.numL) (Fin.append s.sampleH s.sampleL) = .ok (mean, std) ∧
      ∃ i : Fin (s.numH + s.numL), (∀ k, mean i + std i ≤ mean k + std k) ∧ xb = Fin.append s.sampleH s.sampleL i := by
  unfold effectiveBest at h
  obtain ⟨⟨mean, std⟩, hp, h⟩ := Py.bind_ok.mp h
  obtain ⟨i, hi, h⟩ := Py.bind_ok.mp h
  refine ⟨mean, std, hp, ?_⟩
  have hne : (List.ofFn fun j => mean j + 1 * std j) ≠ [] := by
    intro he; rw [he] at hi; cases hi
  obtain ⟨m, hm⟩ := Mfpml.BO.npMin_succeeds hne
  have hat := Mfpml.BO.npArgmin_at hm hi
  have hleast := npMin_isLeast hm
  rw [Mfpml.BO.npRow_ok] at h
  rw [List.getElem?_eq_some_iff] at hat h
  obtain ⟨hi1, hat⟩ := hat
  obtain ⟨hi2, h⟩ := h
  rw [List.length_ofFn] at hi2
  rw [List.getElem_ofFn] at hat h
  refine ⟨⟨i, hi2⟩, fun k => ?_, h.symm⟩
  have := hleast.2 (show (mean k + 1 * std k) ∈ _ from List.mem_ofFn.mpr ⟨k, rfl⟩)
  simp only [one_mul] at this hat
  rw [hat]; exact this

/-- High fidelity: minus the expected improvement of the high-fidelity prediction over the effective incumbent, replaced by 0 where the predicted standard deviation is below machine epsilon; hence
never positive (the improvement is never negative). -/
theorem C66_aei_hf {d m : ℕ} {s : MFSurr d} {cr : ℝ} {x : Samples m d} {v : Fin m → ℝ} (h : aeiEval s cr 0 x = .ok v) :
    ∃ fmin mean std, EffectiveIncumbent s fmin ∧ s.predictStd m x = .ok (mean, std) ∧
      ∀ j, (std j < 2 ^ (-52 : ℤ) → v j = 0) ∧ (2 ^ (-52 : ℤ) ≤ std j → -v j = expectedImprovement fmin (mean j) (std j)) ∧ 0 ≤ -v j := by
  unfold aeiEval at h
  obtain ⟨⟨mean, std⟩, hp, h⟩ := Py.bind_ok.mp h
  obtain ⟨xb, hb, h⟩ := Py.bind_ok.mp h
  obtain ⟨fm, hfm, h⟩ := Py.bind_ok.mp h
  obtain ⟨a, ha, h⟩ := Py.bind_ok.mp h
  simp only [fidelityCorr, if_true] at ha
  cases ha
  cases h
  obtain ⟨me, st, h1, i, h2, rfl⟩ := effectiveBest_ok hb
  refine ⟨fm 0, mean, std, ⟨me, st, h1, i, h2, fm, hfm, rfl⟩, hp, fun j => ?_⟩
  simp only [if_true, mul_one, neg_neg]
  refine ⟨?_, ?_, ?_⟩
  · intro hlt
    have hlt : std j < floatEps := hlt
    rw [aeiFormula, if_pos hlt, neg_zero]
  · intro hge; rw [aeiFormula_eq _ _ (not_lt.mpr hge)]
  · by_cases hlt : std j < floatEps
    · rw [aeiFormula, if_pos hlt]
    · rw [aeiFormula_eq _ _ hlt]; exact expectedImprovement_nonneg _ _ _

/-- Low fidelity: wherever the evaluation gives numbers at all, it is `cost_ratio` times a correlation factor times the high-fidelity value, for every cost ratio; the factor is non-negative and at most 1
where the low-fidelity standard deviation does not exceed the high-fidelity one; so the value vanishes where the model is certain, and is never positive for non-negative cost ratios.
(Full claim: also at points where the model is certain and both fidelities predict the same value; see `C66_counterexample`.) -/
theorem C66_aei_lf_partial {d m : ℕ} {s : MFSurr d} (hs : MFNonneg s) {cr : ℝ} {x : Samples m d} {v : Fin m → ℝ} (h : aeiEval s cr 1 x = .ok v) :
    ∃ (mean std meanL stdL corr v0 : Fin m → ℝ), s.predictStd m x = .ok (mean, std) ∧ s.predictLfStd m x = .ok (meanL, stdL) ∧ aeiEval s cr 0 x = .ok v0 ∧
      (∀ j, corr j * (|mean j - meanL j| + std j) = stdL j ∧ 0 ≤ corr j ∧ (stdL j ≤ std j → corr j ≤ 1)) ∧
      (∀ cr', aeiEval s cr' 1 x = .ok fun j => cr' * corr j * v0 j) ∧ (∀ j, v j = cr * corr j * v0 j) ∧
      (∀ j, std j < 2 ^ (-52 : ℤ) → v j = 0) ∧ (0 ≤ cr → ∀ j, 0 ≤ -v j) := by
  unfold aeiEval at h
  obtain ⟨⟨mean, std⟩, hp, h⟩ := Py.bind_ok.mp h
  obtain ⟨xb, hb, h⟩ := Py.bind_ok.mp h
  obtain ⟨fm, hfm, h⟩ := Py.bind_ok.mp h
  obtain ⟨a, ha, h⟩ := Py.bind_ok.mp h
  simp only [fidelityCorr, one_ne_zero, if_false, if_true] at ha
  have ha' := ha
  obtain ⟨⟨mean', std'⟩, hp', ha⟩ := Py.bind_ok.mp ha
  rw [hp] at hp'
  cases hp'
  obtain ⟨⟨meanL, stdL⟩, hl, ha⟩ := Py.bind_ok.mp ha
  simp only at ha
  split_ifs at ha with hden
  cases ha
  cases h
  have hσ := fun j => hs.1 m x mean std hp j
  have hσl := fun j => hs.2 m x meanL stdL hl j
  have hnn : ∀ j, 0 ≤ |mean j - meanL j| + std j := fun j => add_nonneg (abs_nonneg _) (hσ j)
  have h0 : aeiEval s cr 0 x = .ok fun j => -(aeiFormula (fm 0) (mean j) (std j)) := by
    unfold aeiEval
    rw [hp]
    simp only [bind, Except.bind, hb, hfm, fidelityCorr, if_true, mul_one]
  have hall : ∀ cr', aeiEval s cr' 1 x = .ok fun j => cr' * (stdL j / (|mean j - meanL j| + std j)) * -(aeiFormula (fm 0) (mean j) (std j)) := by
    intro cr'
    unfold aeiEval fidelityCorr
    rw [hp]
    simp only [bind, Except.bind, hb, hfm, one_ne_zero, if_false, if_true, hl]
    rw [if_pos hden]
    simp only [Except.ok.injEq]
    funext j
    ring
  obtain ⟨_, _, _, _, _, hhf⟩ := C66_aei_hf h0
  refine ⟨mean, std, meanL, stdL, fun j => stdL j / (|mean j - meanL j| + std j), fun j => -(aeiFormula (fm 0) (mean j) (std j)), hp, hl, h0, ?_, hall, ?_, ?_, ?_⟩
  · intro j
    have hpos : 0 < |mean j - meanL j| + std j := lt_of_le_of_ne (hnn j) (hden j).symm
    refine ⟨div_mul_cancel₀ _ (hden j), div_nonneg (hσl j) (hnn j), fun hle => ?_⟩
    rw [div_le_one hpos]
    linarith [abs_nonneg (mean j - meanL j)]
  · intro j
    simp only [one_ne_zero, if_false]
    ring
  · intro j hlt
    have hlt : std j < floatEps := hlt
    simp only [aeiFormula, if_pos hlt, zero_mul, neg_zero]
  · intro hcr j
    simp only [one_ne_zero, if_false, neg_neg]
    refine mul_nonneg (mul_nonneg ?_ (div_nonneg (hσl j) (hnn j))) hcr
    have := (hhf j).2.2
    simpa using this

/-- Both theorems apply to a concrete surrogate. -/
example : MFNonneg (constMF true 3 1 5 4 1) ∧ (∃ v, aeiEval (constMF true 3 1 5 4 1) 2 0 (fun (_ : Fin 2) _ => 0) = .ok v) ∧
    ∃ v, aeiEval (constMF true 3 1 5 4 1) 2 1 (fun (_ : Fin 2) _ => 0) = .ok v := by
  refine ⟨constMF_nonneg _ _ _ _ (by norm_num) (by norm_num), ?_, ?_⟩ <;>
  norm_num [aeiEval, effectiveBest, constMF, bind, Except.bind, fidelityCorr, Mfpml.BO.npArgmin, Mfpml.BO.argminScan, Mfpml.BO.npRow, List.ofFn_succ, Fin.forall_fin_two]

/-- Where the model is certain and both fidelities predict the same value, augmented EI at low fidelity is not 0 but `0 · (s/0)`, numpy's `nan`. -/
theorem C66_counterexample (cr c stdL : ℝ) : aeiEval (constMF true c 0 c stdL 1) cr 1 (fun (_ : Fin 1) _ => 0) = .error .nonFinite := by
  norm_num [aeiEval, effectiveBest, constMF, bind, Except.bind, fidelityCorr, Mfpml.BO.npArgmin, Mfpml.BO.argminScan, Mfpml.BO.npRow, List.ofFn_succ]

/-! ## C67: VFEI -/

/-- VFEI accepts hierarchical Kriging models only. -/
theorem C67_vfei_rejects {d m : ℕ} {s : MFSurr d} (h : s.isHK = false) (fmin : ℝ) (fid : ℤ) (x : Samples m d) : vfeiEval fmin s fid x = .error .valueError := by
  rw [vfeiEval, if_pos h]

/-- In particular scaled Kriging and co-Kriging models are rejected. -/
theorem C67_vfei_rejects_models {nh nl d q ql qd m : ℕ} (sk : SKObj d ql qd) (t : SKFit nh nl d ql qd) (ck : CKObj d q) (u : CKFit nh nl d q) (Xh : Samples nh d) (Xl : Samples nl d) (fmin : ℝ)
    (fid : ℤ) (x : Samples m d) :
    vfeiEval fmin (MFSurr.ofSK sk t) fid x = .error .valueError ∧ vfeiEval fmin (MFSurr.ofCK ck u Xh Xl) fid x = .error .valueError :=
  ⟨C67_vfei_rejects rfl _ _ _, C67_vfei_rejects rfl _ _ _⟩

/-- High fidelity: within 2e-8 of minus the expected improvement over `fmin`, 0 where the standard deviation is below machine epsilon.  Low fidelity: 0 where the trend coefficient times the low-fidelity standard
deviation is below machine epsilon, otherwise *the same value as for the high-fidelity prediction*: the low-fidelity standard deviation does not enter.
(Full claim: at low fidelity the expected improvement with the scaled low-fidelity standard deviation; see `C67_counterexample`.) -/
theorem C67_vfei_partial {d m : ℕ} {s : MFSurr d} (hs : MFNonneg s) {fmin : ℝ} {fid : ℤ} {x : Samples m d} {v : Fin m → ℝ} (h : vfeiEval fmin s fid x = .ok v) :
    ∃ mean std, s.predictStd m x = .ok (mean, std) ∧
      ((fid = 0 ∧ ∀ j, (std j < 2 ^ (-52 : ℤ) → v j = 0) ∧ (2 ^ (-52 : ℤ) ≤ std j → |(-v j) - expectedImprovement fmin (mean j) (std j)| ≤ 2e-8)) ∨
        (fid = 1 ∧ ∃ meanL stdL beta, s.predictLfStd m x = .ok (meanL, stdL) ∧ s.beta = .ok beta ∧
          ∀ j, (beta * stdL j < 2 ^ (-52 : ℤ) → v j = 0) ∧ (2 ^ (-52 : ℤ) ≤ beta * stdL j → |(-v j) - expectedImprovement fmin (mean j) (std j)| ≤ 2e-8))) := by
  unfold vfeiEval at h
  by_cases hk : s.isHK = false
  · rw [if_pos hk] at h; cases h
  rw [if_neg hk] at h
  obtain ⟨⟨mean, std⟩, hp, h⟩ := Py.bind_ok.mp h
  have hnear : ∀ j, |((fmin - mean j) * normCdf ((fmin - mean j) / (std j + tiny8)) + std j * normPdf ((fmin - mean j) / (std j + tiny8))) - expectedImprovement fmin (mean j) (std j)| ≤ 2e-8 := by
    intro j
    refine (regularised_ei_near fmin (mean j) (hs.1 m x mean std hp j) tiny8_pos).trans ?_
    norm_num [tiny8]
  refine ⟨mean, std, hp, ?_⟩
  simp only at h
  split_ifs at h with h0 h1
  · cases h
    refine Or.inl ⟨h0, fun j => ⟨fun hlt => ?_, fun hge => ?_⟩⟩
    · have hlt : std j < floatEps := hlt
      simp only [vfeiFormula, if_pos hlt, neg_zero]
    · have hge : ¬std j < floatEps := not_lt.mpr hge
      simp only [vfeiFormula, if_neg hge, neg_neg]; exact hnear j
  · obtain ⟨⟨meanL, stdL⟩, hl, h⟩ := Py.bind_ok.mp h
    obtain ⟨beta, hb, h⟩ := Py.bind_ok.mp h
    cases h
    refine Or.inr ⟨h1, meanL, stdL, beta, hl, hb, fun j => ⟨fun hlt => ?_, fun hge => ?_⟩⟩
    · have hlt : beta * stdL j < floatEps := hlt
      simp only [vfeiFormula, if_pos hlt, neg_zero]
    · have hge : ¬beta * stdL j < floatEps := not_lt.mpr hge
      simp only [vfeiFormula, if_neg hge, neg_neg]; exact hnear j

/-- `C67_vfei_partial` applies at both fidelities. -/
example : MFNonneg (constMF true 3 1 5 4 1) ∧ (∃ v, vfeiEval 3 (constMF true 3 1 5 4 1) 0 (fun (_ : Fin 2) _ => 0) = .ok v) ∧
    ∃ v, vfeiEval 3 (constMF true 3 1 5 4 1) 1 (fun (_ : Fin 2) _ => 0) = .ok v :=
  ⟨constMF_nonneg _ _ _ _ (by norm_num) (by norm_num), ⟨_, rfl⟩, ⟨_, rfl⟩⟩

/-- At low fidelity the value can differ from the expected improvement with the scaled low-fidelity standard deviation by more than 1: mean 0, high-fidelity standard deviation 1, low-fidelity standard
deviation 10, trend coefficient 1, incumbent 0. -/
theorem C67_counterexample : ∃ v, vfeiEval 0 (constMF true 0 1 0 10 1) 1 (fun (_ : Fin 1) _ => 0) = .ok v ∧ 1 < |(-v 0) - expectedImprovement 0 0 (1 * 10)| := by
  refine ⟨_, rfl, ?_⟩
  have he : ¬(10 : ℝ) < floatEps := by
    have : floatEps ≤ 1 := by
      unfold floatEps
      exact zpow_le_one_of_nonpos₀ (by norm_num) (by norm_num)
    linarith
  have h1 : (3 : ℝ) / 10 ≤ normPdf 0 := by
    rw [normPdf_eq]
    have h2 : Real.sqrt (2 * Real.pi) ≤ 10 / 3 := by
      rw [Real.sqrt_le_left (by norm_num)]
      nlinarith [Real.pi_lt_d2]
    have h3 : 0 < Real.sqrt (2 * Real.pi) := Real.sqrt_pos.mpr (by positivity)
    simp only [ne_eq, OfNat.ofNat_ne_zero, not_false_eq_true, zero_pow, neg_zero, zero_div, Real.exp_zero, mul_one]
    rw [le_inv_comm₀ (by norm_num) h3]
    linarith
  rw [expectedImprovement_eq _ _ (by norm_num)]
  simp only [vfeiFormula, neg_neg, sub_self, zero_mul, zero_div, zero_add, one_mul, if_neg he]
  rw [lt_abs]
  right
  linarith

/-! ## C60: which fidelity is queried -/

/-- The four multi-fidelity acquisitions as functions of fidelity and point, at given surrogate, cost ratio and incumbent (`epi` also of the value of the searched minimum of the predicted mean). -/
theorem query_best {W : Type} {d : ℕ} {evalAt : ℤ → (Fin d → ℝ) → Py ℝ} {ε : ℝ} {de : DiffEvo W d} (hde : ApproxSearch ε de) {bound : Py (Box ℝ d)} {w w' : W} {x : Fin d → ℝ} {fid : ℤ}
    (h : mfChoose evalAt none de bound w = .ok ((x, fid), w')) :
    ∃ b v, bound = .ok b ∧ InBounds b x ∧ (fid = 0 ∨ fid = 1) ∧ evalAt fid x = .ok v ∧
      (∀ fid', fid' = 0 ∨ fid' = 1 → ∀ x' v', InBounds b x' → evalAt fid' x' = .ok v' → v ≤ v' + ε) ∧
      (fid = 1 → ∀ x' v', InBounds b x' → evalAt 0 x' = .ok v' → v < v' + ε) := by
  obtain ⟨b, hf, wm, lf, hb, h1, h2, hc⟩ := mfChoose_ok h
  have g1 := hde.1 _ _ _ _ _ _ h1
  have g2 := hde.1 _ _ _ _ _ _ h2
  have m1 := hde.2 _ _ _ _ _ _ h1
  have m2 := hde.2 _ _ _ _ _ _ h2
  rcases hc with ⟨hle, rfl, rfl⟩ | ⟨hlt, rfl, rfl⟩
  · refine ⟨b, hf.2, hb, g1.1, Or.inl rfl, g1.2, ?_, fun h => absurd h (by norm_num)⟩
    rintro fid' (rfl | rfl) x' v' hx hv
    · exact m1 x' v' hx hv
    · exact hle.trans (m2 x' v' hx hv)
  · refine ⟨b, lf.2, hb, g2.1, Or.inr rfl, g2.2, ?_, fun _ x' v' hx hv => hlt.trans_le (m1 x' v' hx hv)⟩
    rintro fid' (rfl | rfl) x' v' hx hv
    · exact hlt.le.trans (m1 x' v' hx hv)
    · exact m2 x' v' hx hv

/-- The pair (point, fidelity) returned by a query minimises the acquisition over both fidelities and the whole design space, up to the accuracy `ε` with which the search procedure minimises over the
design space at one fidelity; the low fidelity is returned only if it beats every high-fidelity value up to `ε` (with exact searches, `ε = 0`: only if every high-fidelity value is larger).  For all four acquisitions. -/
theorem C60_query_best {W : Type} {d : ℕ} {ε : ℝ} {de : DiffEvo W d} (hde : ApproxSearch ε de) (s : MFSurr d) (cr fmin : ℝ) (kappa : ℝ × ℝ) {w w' : W} {x : Fin d → ℝ} {fid : ℤ} :
    let Best := fun (acq : ℤ → (Fin d → ℝ) → Py ℝ) => ∃ b v, s.bound = .ok b ∧ InBounds b x ∧ (fid = 0 ∨ fid = 1) ∧ acq fid x = .ok v ∧
      (∀ fid', fid' = 0 ∨ fid' = 1 → ∀ x' v', InBounds b x' → acq fid' x' = .ok v' → v ≤ v' + ε) ∧
      (fid = 1 → ∀ x' v', InBounds b x' → acq 0 x' = .ok v' → v < v' + ε)
    (aeiQuery none de s cr fmin w = .ok ((x, fid), w') → Best fun f x => (aeiEval s cr f (onePoint x)).map (· 0)) ∧
    (vfeiQuery none de s cr fmin w = .ok ((x, fid), w') → Best fun f x => (vfeiEval fmin s f (onePoint x)).map (· 0)) ∧
    (vflcbQuery kappa none de s cr fmin w = .ok ((x, fid), w') → Best fun f x => (vflcbEval kappa s cr f (onePoint x)).map (· 0)) ∧
    (epiQuery none de s cr fmin w = .ok ((x, fid), w') → ∃ ymin, (∃ b xm, s.bound = .ok b ∧ InBounds b xm ∧ (s.predict 1 (onePoint xm)).map (· 0) = .ok ymin ∧
        ∀ x' y', InBounds b x' → (s.predict 1 (onePoint x')).map (· 0) = .ok y' → ymin ≤ y' + ε) ∧
      Best fun f x => (epiEval s ymin cr f (onePoint x)).map fun v => v 0 0) := by
  have hmap : ∀ ev : Samples 1 d → Py (Fin 1 → ℝ), single ev = fun x => (ev (onePoint x)).map (· 0) := by
    intro ev; funext x
    unfold single
    cases hv : ev (onePoint x) <;> simp [hv, bind, Except.bind, Except.map]
  have hmap2 : ∀ ev : Samples 1 d → Py (Fin 1 → Fin 1 → ℝ),
      single (fun x => do let v ← ev x; .ok (fun i => v i i)) = fun x => (ev (onePoint x)).map fun v => v 0 0 := by
    intro ev; funext x
    unfold single
    cases hv : ev (onePoint x) <;> simp [hv, bind, Except.bind, Except.map]
  simp only
  refine ⟨fun h => ?_, fun h => ?_, fun h => ?_, fun h => ?_⟩
  · unfold aeiQuery at h
    simp only [hmap] at h
    exact query_best hde h
  · unfold vfeiQuery at h
    simp only [hmap] at h
    exact query_best hde h
  · unfold vflcbQuery at h
    simp only [hmap] at h
    exact query_best hde h
  · unfold epiQuery at h
    obtain ⟨b, hb, h⟩ := Py.bind_ok.mp h
    obtain ⟨⟨pm, w2⟩, hpm, h⟩ := Py.bind_ok.mp h
    simp only [hmap2] at h
    have g := hde.1 _ _ _ _ _ _ hpm
    have m := hde.2 _ _ _ _ _ _ hpm
    rw [hmap] at g m
    exact ⟨pm.2, ⟨b, pm.1, hb, g.1, g.2, m⟩, query_best hde h⟩

open Classical in
/-- A search procedure for examples: it reports the value at the lower corner.  For the constant objectives of the examples that is a global minimum; for other objectives it fails. -/
noncomputable def cornerSearch (d : ℕ) : DiffEvo Unit d := fun f b w => do
  let v ← f b.low
  if (∀ j, b.low j ≤ b.high j) ∧ ∀ x v', InBounds b x → f x = .ok v' → v ≤ v' then .ok ((b.low, v), w) else .error .outOfModel

theorem cornerSearch_global (d : ℕ) : ApproxSearch 0 (cornerSearch d) := by
  constructor
  · intro f b w x v w' h
    unfold cornerSearch at h
    obtain ⟨u, hu, h⟩ := Py.bind_ok.mp h
    split_ifs at h with hc
    cases h
    exact ⟨fun j => ⟨le_rfl, hc.1 j⟩, hu⟩
  · intro f b w x v w' h
    unfold cornerSearch at h
    obtain ⟨u, hu, h⟩ := Py.bind_ok.mp h
    split_ifs at h with hc
    cases h
    simpa using hc.2

/-- A query that succeeds: low confidence bounds 1 (high fidelity) and -5 (low fidelity), so the low fidelity is chosen. -/
example : vflcbQuery (1, 2) none (cornerSearch 1) (constMF true 3 1 5 4 1) 1 0 () = .ok ((fun _ => 0, 1), ()) := by
  have h : ∀ fid : ℤ, fid = 0 ∨ fid = 1 → single (vflcbEval (1, 2) (constMF true 3 1 5 4 1) 1 fid) = fun _ => .ok (if fid = 0 then 1 * 3 - 2 * 1 else 1 * 3 - 2 * (4 * 1)) := by
    intro fid hf
    funext x
    rcases hf with rfl | rfl <;> rfl
  have hs : ∀ (c : ℝ) (b : Box ℝ 1), (∀ j, b.low j ≤ b.high j) → cornerSearch 1 (fun _ => .ok c) b () = .ok ((b.low, c), ()) := by
    intro c b hb
    simp only [cornerSearch, bind, Except.bind]
    rw [if_pos ⟨hb, fun x v' _ e => by cases e; exact le_rfl⟩]
  unfold vflcbQuery mfChoose
  simp only [h 0 (Or.inl rfl), h 1 (Or.inr rfl)]
  simp only [constMF, bind, Except.bind]
  rw [hs _ _ (fun _ => by norm_num)]
  simp only []
  rw [hs _ _ (fun _ => by norm_num)]
  norm_num

/-! ## C61: optimiser objects -/

/-- With the default (no optimiser object), single-fidelity queries return a point of the design space found by the search procedure, with the acquisition value it reports. -/
theorem C61_default_partial {W : Type} {d : ℕ} {ε : ℝ} {de : DiffEvo W d} (hde : ApproxSearch ε de) (s : SFSurr d) (cons : List (SFSurr d)) {w w' : W} {x : Fin d → ℝ}
    (eval : (m : ℕ) → SFSurr d → Samples m d → Py (Fin m → ℝ)) :
    (sfQuery eval none de s w = .ok (x, w') → InBounds s.bounds x ∧ ∃ v, (eval 1 s (onePoint x)).map (· 0) = .ok v ∧
      ∀ x' v', InBounds s.bounds x' → (eval 1 s (onePoint x')).map (· 0) = .ok v' → v ≤ v' + ε) ∧
    (consQuery none de s cons w = .ok (x, w') → InBounds s.bounds x ∧ ∃ v, (ceiEval s cons (onePoint x)).map (fun v => v 0 0) = .ok v ∧
      ∀ x' v', InBounds s.bounds x' → (ceiEval s cons (onePoint x')).map (fun v => v 0 0) = .ok v' → v ≤ v' + ε) := by
  have hmap : ∀ ev : Samples 1 d → Py (Fin 1 → ℝ), single ev = fun x => (ev (onePoint x)).map (· 0) := by
    intro ev; funext x
    unfold single
    cases hv : ev (onePoint x) <;> simp [hv, bind, Except.bind, Except.map]
  have hmap2 : ∀ ev : Samples 1 d → Py (Fin 1 → Fin 1 → ℝ),
      single (fun x => do let v ← ev x; .ok (fun i => v i i)) = fun x => (ev (onePoint x)).map fun v => v 0 0 := by
    intro ev; funext x
    unfold single
    cases hv : ev (onePoint x) <;> simp [hv, bind, Except.bind, Except.map]
  constructor
  · intro h
    unfold sfQuery at h
    obtain ⟨⟨r, w2⟩, hr, h⟩ := Py.bind_ok.mp h
    cases h
    have g := hde.1 _ _ _ _ _ _ hr
    have m := hde.2 _ _ _ _ _ _ hr
    rw [hmap] at g m
    exact ⟨g.1, r.2, g.2, m⟩
  · intro h
    unfold consQuery at h
    obtain ⟨⟨r, w2⟩, hr, h⟩ := Py.bind_ok.mp h
    cases h
    have g := hde.1 _ _ _ _ _ _ hr
    have m := hde.2 _ _ _ _ _ _ hr
    rw [hmap2] at g m
    exact ⟨g.1, r.2, g.2, m⟩

/-- No acquisition of the library works with an optimiser object: whatever the surrogate, every query raises — `TypeError` for the single-fidelity ones (their `eval` is called without the surrogate),
`UnboundLocalError` for the multi-fidelity ones (for ExtendedPI, if the preceding search for the model's minimum succeeds). -/
theorem C61_counterexample {W : Type} {d : ℕ} {run : PopOpt W d} (hrun : PropagatesErrors run) (de : DiffEvo W d) (w : W) :
    (∀ (eval : (m : ℕ) → SFSurr d → Samples m d → Py (Fin m → ℝ)) s, sfQuery eval (some run) de s w = .error .typeError) ∧
    (∀ obj cons, consQuery (some run) de obj cons w = .error .typeError) ∧
    ∀ (s : MFSurr d) cr fmin kappa, aeiQuery (some run) de s cr fmin w = .error .unboundLocal ∧ vfeiQuery (some run) de s cr fmin w = .error .unboundLocal ∧
      vflcbQuery kappa (some run) de s cr fmin w = .error .unboundLocal ∧ ∀ r, epiQuery (some run) de s cr fmin w ≠ .ok r := by
  refine ⟨fun eval s => hrun _ _ _ _ fun _ _ => rfl, fun obj cons => hrun _ _ _ _ fun _ _ => rfl, fun s cr fmin kappa => ⟨rfl, rfl, rfl, ?_⟩⟩
  intro r h
  unfold epiQuery at h
  obtain ⟨b, _, h⟩ := Py.bind_ok.mp h
  obtain ⟨pm, _, h⟩ := Py.bind_ok.mp h
  cases h

/-! ## C82: extended probability of improvement -/

/-- What `ExtendedPI.eval` computes at one point: minus the probability that the high-fidelity prediction is at most the incumbent (0 where the model is certain), times the correlation factor of augmented EI, times 1 (high
fidelity) or the cost ratio (low fidelity), times the product of the correlations of the point with the samples of that fidelity. -/
theorem C82_epi {d : ℕ} {s : MFSurr d} (hs : MFNonneg s) {fmin cr : ℝ} {fid : ℤ} {x : Fin d → ℝ} {v : Fin 1 → Fin 1 → ℝ} (h : epiEval s fmin cr fid (onePoint x) = .ok v) :
    ∃ mean std pi corr eta, s.predictStd 1 (onePoint x) = .ok (mean, std) ∧
      (std 0 < 2 ^ (-52 : ℤ) → pi = 0) ∧ (2 ^ (-52 : ℤ) ≤ std 0 → pi = probAtMost fmin (mean 0) (std 0)) ∧ 0 ≤ pi ∧ pi ≤ 1 ∧ 0 ≤ corr ∧
      ((fid = 0 ∧ corr = 1 ∧ -v 0 0 = pi * eta ∧ ∃ R, s.evalCorr 1 s.numH (onePoint x) s.sampleH 0 = .ok (some R) ∧ eta = ∏ k, R 0 k) ∨
        (fid = 1 ∧ -v 0 0 = cr * (pi * corr * eta) ∧ (∃ R, s.evalCorr 1 s.numL (onePoint x) s.sampleL 1 = .ok (some R) ∧ eta = ∏ k, R 0 k) ∧
          ∃ meanL stdL, s.predictLfStd 1 (onePoint x) = .ok (meanL, stdL) ∧ corr * (|mean 0 - meanL 0| + std 0) = stdL 0 ∧ (stdL 0 ≤ std 0 → corr ≤ 1))) := by
  have hpi : ∀ mean std : ℝ, (std < 2 ^ (-52 : ℤ) → epiFormula fmin mean std = 0) ∧ (2 ^ (-52 : ℤ) ≤ std → epiFormula fmin mean std = probAtMost fmin mean std) ∧
      0 ≤ epiFormula fmin mean std ∧ epiFormula fmin mean std ≤ 1 := by
    intro mean std
    refine ⟨fun hlt => ?_, fun hge => ?_, ?_, ?_⟩
    · have hlt : std < floatEps := hlt
      rw [epiFormula, if_pos hlt]
    · have hge : floatEps ≤ std := hge
      rw [epiFormula, if_neg (not_lt.mpr hge), probAtMost_eq _ _ (floatEps_pos.trans_le hge)]
    · unfold epiFormula; split_ifs
      · exact le_rfl
      · exact normCdf_nonneg _
    · unfold epiFormula; split_ifs
      · exact zero_le_one
      · exact normCdf_le_one _
  unfold epiEval at h
  obtain ⟨⟨mean, std⟩, hp, h⟩ := Py.bind_ok.mp h
  obtain ⟨c, hc, h⟩ := Py.bind_ok.mp h
  obtain ⟨p1, p2, p3, p4⟩ := hpi (mean 0) (std 0)
  cases c with
  | none => cases h
  | some c =>
    simp only at h
    by_cases h0 : fid = 0
    · simp only [fidelityCorr, if_pos h0] at hc
      cases hc
      rw [if_pos h0] at h
      obtain ⟨r, hr, h⟩ := Py.bind_ok.mp h
      cases r with
      | none => cases h
      | some R =>
        cases h
        exact ⟨mean, std, _, 1, ∏ k, R 0 k, hp, p1, p2, p3, p4, zero_le_one, Or.inl ⟨h0, rfl, by ring, R, hr, rfl⟩⟩
    · by_cases h1 : fid = 1
      · rw [if_neg h0] at h
        simp only [fidelityCorr, if_neg h0, if_pos h1] at hc
        obtain ⟨⟨mean', std'⟩, hp', hc⟩ := Py.bind_ok.mp hc
        rw [hp] at hp'
        cases hp'
        obtain ⟨⟨meanL, stdL⟩, hl, hc⟩ := Py.bind_ok.mp hc
        simp only at hc
        split_ifs at hc with hden
        cases hc
        obtain ⟨r, hr, h⟩ := Py.bind_ok.mp h
        have hσ := hs.1 1 _ mean std hp 0
        have hσl := hs.2 1 _ meanL stdL hl 0
        have hnn : 0 ≤ |mean 0 - meanL 0| + std 0 := add_nonneg (abs_nonneg _) hσ
        have hpos : 0 < |mean 0 - meanL 0| + std 0 := lt_of_le_of_ne hnn (hden 0).symm
        cases r with
        | none => cases h
        | some R =>
          cases h
          refine ⟨mean, std, _, stdL 0 / (|mean 0 - meanL 0| + std 0), ∏ k, R 0 k, hp, p1, p2, p3, p4, div_nonneg hσl hnn,
            Or.inr ⟨h1, by ring, ⟨R, hr, rfl⟩, meanL, stdL, hl, div_mul_cancel₀ _ hpos.ne', fun hle => ?_⟩⟩
          rw [div_le_one hpos]
          linarith [abs_nonneg (mean 0 - meanL 0)]
      · simp only [fidelityCorr, if_neg h0, if_neg h1] at hc
        cases hc

theorem rbf_eta {d m : ℕ} {param : Fin d → ℝ} (hpar : ∀ k, 0 ≤ param k) (x : Samples 1 d) (X : Samples m d) : 0 < ∏ k, rbfMatrix param x X 0 k ∧ ∏ k, rbfMatrix param x X 0 k ≤ 1 + nugget := by
  have hpos : ∀ k, 0 < rbfMatrix param x X 0 k := by
    intro k
    unfold rbfMatrix
    have := Real.exp_pos (-(rbfDist param (x 0) (X k)))
    split_ifs <;> linarith [nugget_pos]
  refine ⟨Finset.prod_pos fun k _ => hpos k, ?_⟩
  have he : ∀ k, Real.exp (-(rbfDist param (x 0) (X k))) ≤ 1 := fun k => Real.exp_le_one_iff.mpr (by linarith [rbfDist_nonneg param hpar (x 0) (X k)])
  cases m with
  | zero => simp [nugget_pos.le]
  | succ m =>
    rw [Fin.prod_univ_succ]
    have h0 : rbfMatrix param x X 0 0 ≤ 1 + nugget := by
      have := he 0
      simp only [rbfMatrix, if_true, one_mul, Fin.val_zero]
      linarith
    have h1 : ∏ k : Fin m, rbfMatrix param x X 0 k.succ ≤ 1 := by
      refine Finset.prod_le_one (fun k _ => (hpos _).le) fun k _ => ?_
      have := he k.succ
      simp only [rbfMatrix, Fin.val_zero, Fin.val_succ]
      rw [if_neg (by omega)]
      linarith
    have hn : 0 ≤ ∏ k : Fin m, rbfMatrix param x X 0 k.succ := Finset.prod_nonneg fun k _ => (hpos _).le
    have := nugget_pos
    nlinarith

/-- With a hierarchical Kriging model the product of correlations lies in (0, 1 + 1e-10], so `-ExtendedPI` lies in [0, 1 + 1e-10] at high fidelity, and at low fidelity (non-negative cost ratio) in
[0, `cost_ratio · (1 + 1e-10)`] wherever the low-fidelity standard deviation does not exceed the high-fidelity one.
(Full claim: the product of correlations penalises points that are already sampled, vanishing there; see `C82_counterexample`.) -/
theorem C82_epi_hk_partial {nh nl d q : ℕ} {hk0 hk : HKObj d q} {wd : MFWorld d} {Xh : Samples nh d} {yh : Fin nh → ℝ} {Xl : Samples nl d} {yl : Fin nl → ℝ} {t : HKFit nh nl d q}
    (htr : hk0.train wd Xh yh Xl yl = .ok (hk, t)) {fmin cr : ℝ} (hcr : 0 ≤ cr) {fid : ℤ}
    {x : Fin d → ℝ} {v : Fin 1 → Fin 1 → ℝ} (h : epiEval (MFSurr.ofHK hk t) fmin cr fid (onePoint x) = .ok v) :
    0 ≤ -v 0 0 ∧ (fid = 0 → -v 0 0 ≤ 1 + 1e-10) ∧
      (fid = 1 → ∀ mean std meanL stdL, hk.predictStd t (onePoint x) = .ok (mean, std) → GP.predictStd hk.lf t.lfFit (onePoint x) = .ok (meanL, stdL) → stdL 0 ≤ std 0 →
        -v 0 0 ≤ cr * (1 + 1e-10)) := by
  have hT := (hkTrained_of_train htr).1
  have hpar : ∀ k, 0 ≤ hk.kernel.param k := fun k => (hT.param k).le
  have hparL : ∀ k, 0 ≤ hk.lf.kernel.param k := fun k => (hT.lf.param k).le
  have hnug : (1e-10 : ℝ) = nugget := by unfold nugget; norm_num
  rw [hnug]
  have heta : ∀ (m : ℕ) (X : Samples m d) (f : ℤ) R, (MFSurr.ofHK hk t).evalCorr 1 m (onePoint x) X f = .ok (some R) → 0 < ∏ k, R 0 k ∧ ∏ k, R 0 k ≤ 1 + nugget := by
    intro m X f R hR
    simp only [MFSurr.ofHK, HKObj.evalCorr] at hR
    obtain ⟨xs, _, hR⟩ := Py.bind_ok.mp hR
    obtain ⟨Xs, _, hR⟩ := Py.bind_ok.mp hR
    split_ifs at hR <;> cases hR
    · exact rbf_eta hpar _ _
    · exact rbf_eta hparL _ _
  obtain ⟨mean, std, pi, corr, eta, hp, _, _, p3, p4, hc0, hcase⟩ := C82_epi (ofHK_nonneg hk t) h
  rcases hcase with ⟨h0, hc, hv, R, hR, rfl⟩ | ⟨h1, hv, ⟨R, hR, rfl⟩, meanL, stdL, hl, _, hc⟩
  · obtain ⟨e1, e2⟩ := heta _ _ _ _ hR
    refine ⟨by rw [hv]; exact mul_nonneg p3 e1.le, fun _ => ?_, fun h1 => absurd (h0.symm.trans h1) (by norm_num)⟩
    rw [hv]
    nlinarith
  · obtain ⟨e1, e2⟩ := heta _ _ _ _ hR
    refine ⟨by rw [hv]; exact mul_nonneg hcr (mul_nonneg (mul_nonneg p3 hc0) e1.le), fun h0 => absurd (h0.symm.trans h1) (by norm_num), fun _ m' s' ml' sl' hp' hl' hle => ?_⟩
    change hk.predictStd t (onePoint x) = _ at hp
    change GP.predictStd hk.lf t.lfFit (onePoint x) = _ at hl
    rw [hp] at hp'
    rw [hl] at hl'
    cases hp'; cases hl'
    have hc1 := hc hle
    rw [hv]
    refine mul_le_mul_of_nonneg_left ?_ hcr
    have h1 : pi * corr ≤ 1 := mul_le_one₀ p4 hc0 hc1
    have h2 : 0 ≤ pi * corr := mul_nonneg p3 hc0
    nlinarith

/-- The sample-density factor never vanishes, not even at a sampled point: with every hierarchical Kriging model, extended PI is strictly positive at every point, sampled or not, where the model is
not certain.  (The cited reference uses the product of `1 - correlation`; the code multiplies the correlations themselves.) -/
theorem C82_counterexample {nh nl d q : ℕ} {hk0 hk : HKObj d q} {wd : MFWorld d} {Xh : Samples nh d} {yh : Fin nh → ℝ} {Xl : Samples nl d} {yl : Fin nl → ℝ} {t : HKFit nh nl d q}
    (htr : hk0.train wd Xh yh Xl yl = .ok (hk, t)) {fmin cr : ℝ} {i : Fin nh} {v : Fin 1 → Fin 1 → ℝ}
    (h : epiEval (MFSurr.ofHK hk t) fmin cr 0 (onePoint (Xh i)) = .ok v) {mean std : Fin 1 → ℝ} (hp : hk.predictStd t (onePoint (Xh i)) = .ok (mean, std)) (hstd : 2 ^ (-52 : ℤ) ≤ std 0) :
    0 < -v 0 0 := by
  have hT := (hkTrained_of_train htr).1
  have hpar : ∀ k, 0 ≤ hk.kernel.param k := fun k => (hT.param k).le
  obtain ⟨mean', std', pi, corr, eta, hp', _, p2, _, _, _, hcase⟩ := C82_epi (ofHK_nonneg hk t) h
  change hk.predictStd t _ = _ at hp'
  rw [hp] at hp'
  cases hp'
  have hpos : 0 < std 0 := floatEps_pos.trans_le hstd
  have hpi : 0 < pi := by
    rw [p2 hstd, probAtMost_eq _ _ hpos]
    exact normCdf_pos _
  rcases hcase with ⟨_, _, hv, R, hR, rfl⟩ | ⟨h1, _⟩
  · rw [hv]
    simp only [MFSurr.ofHK, HKObj.evalCorr, if_true] at hR
    obtain ⟨xs, _, hR⟩ := Py.bind_ok.mp hR
    obtain ⟨Xs, _, hR⟩ := Py.bind_ok.mp hR
    cases hR
    exact mul_pos hpi (rbf_eta hpar _ _).1
  · exact absurd h1 (by norm_num)

/-- The example model of `Verif/Props/MFKriging.lean` with noise 1 at high fidelity: it trains, and at each sampled point the acquisition is computed and the standard deviation is at least 1, so
the hypotheses of the two theorems above are met. -/
example (fmin cr : ℝ) (i : Fin 3) : ∃ hk t v mean std, HKObj.train { exHK (some 0) with noise := some 1 } ⟨exWorld, exWorld⟩ (fun i _ => ![0, 1, 2] i : Samples 3 1) ![0, 1, 5]
      (fun i _ => ![0, 1, 2] i : Samples 3 1) ![0, 1, 2] = .ok (hk, t) ∧
    epiEval (MFSurr.ofHK hk t) fmin cr 0 (onePoint fun _ => ![0, 1, 2] i) = .ok v ∧ hk.predictStd t (onePoint fun _ => ![0, 1, 2] i) = .ok (mean, std) ∧ 2 ^ (-52 : ℤ) ≤ std 0 := by
  obtain ⟨lf', lfFit, hlf⟩ := exGP_trains (some 0) (fun i _ => ![0, 1, 2] i : Samples 3 1) ![0, 1, 2] 0 1 (by norm_num)
  have hf := C34_interpolation _ _ _ _ rfl _ _ hlf
  have hmean : mean (![0, 1, 5] : Fin 3 → ℝ) = 2 := by
    unfold mean; rw [Fin.sum_univ_three]; simp; norm_num
  obtain ⟨hk, t, htr⟩ := C41_hk_train_succeeds { exHK (some 0) with noise := some 1 } ⟨exWorld, exWorld⟩ (fun i _ => ![0, 1, 2] i : Samples 3 1) ![0, 1, 5]
    (fun i _ => ![0, 1, 2] i : Samples 3 1) ![0, 1, 2] (fun _ => by simp [exHK, exGP]) (by simp [exHK, RBF.mk']; norm_num)
    cornerMinimizer_good (fun run h => by simp [exHK] at h) (by simp [exWorld]) (by simp [exWorld]) 0 1 (by norm_num) lf' lfFit hlf _ hf 0 (by rw [hmean]; simp) (fun h => by simp at h)
  obtain ⟨hT, _, _, _, _, hno, _⟩ := hkTrained_of_train htr
  obtain ⟨μ, mse, _, hm, h3⟩ := hkPredictStd_eq hT (onePoint fun _ => ![0, 1, 2] i) (predictMean_eq hT.lf _)
  have hv : ∃ v, epiEval (MFSurr.ofHK hk t) fmin cr 0 (onePoint fun _ => ![0, 1, 2] i) = .ok v := by
    unfold epiEval
    exact ⟨_, Py.bind_ok.mpr ⟨_, h3, Py.bind_ok.mpr ⟨some fun _ => 1, rfl, (if_pos rfl).trans (Py.bind_ok.mpr ⟨some (hk.kernel.getKernelMatrix _ _),
      Py.bind_ok.mpr ⟨_, normalizeInput_eq _ hT.range, Py.bind_ok.mpr ⟨_, normalizeInput_eq _ hT.range, rfl⟩⟩, rfl⟩)⟩⟩⟩
  obtain ⟨v, hv⟩ := hv
  refine ⟨hk, t, v, μ, _, htr, hv, h3, ?_⟩
  · rw [hno 1 rfl]
    have h1 : (2 : ℝ) ^ (-52 : ℤ) ≤ 1 := zpow_le_one_of_nonpos₀ (by norm_num) (by norm_num)
    refine h1.trans (Real.le_sqrt_of_sq_le ?_)
    nlinarith [sq_nonneg (Real.sqrt (max (mse 0) 0) * t.yhStd)]

/-- `C82_epi` applies to a concrete surrogate, at both fidelities. -/
example : (∃ v, epiEval (constMF true 3 1 5 4 1) 3 2 0 (onePoint fun _ => 0) = .ok v) ∧ ∃ v, epiEval (constMF true 3 1 5 4 1) 3 2 1 (onePoint fun _ => 0) = .ok v := by
  constructor <;> norm_num [epiEval, constMF, bind, Except.bind, fidelityCorr]

/-! ## C81: unknown fidelities -/

/-- A fidelity other than 0 (high) and 1 (low) is never evaluated: all four acquisitions raise. -/
theorem C81_unknown_fidelity {d m : ℕ} (s : MFSurr d) (cr fmin : ℝ) (kappa : ℝ × ℝ) {fid : ℤ} (h0 : fid ≠ 0) (h1 : fid ≠ 1) (x : Samples m d) :
    (∃ e, aeiEval s cr fid x = .error e) ∧ (∃ e, vfeiEval fmin s fid x = .error e) ∧ (∃ e, vflcbEval kappa s cr fid x = .error e) ∧ ∃ e, epiEval s fmin cr fid x = .error e := by
  have hne : ∀ {α : Type} (p : Py α), (∀ v, p ≠ .ok v) → ∃ e, p = .error e := by
    intro α p hp
    cases p with
    | error e => exact ⟨e, rfl⟩
    | ok v => exact absurd rfl (hp v)
  have hcorr : fidelityCorr s x fid = .ok none := by simp only [fidelityCorr, if_neg h0, if_neg h1]
  refine ⟨hne _ fun v h => ?_, hne _ fun v h => ?_, hne _ fun v h => ?_, hne _ fun v h => ?_⟩
  · unfold aeiEval at h
    obtain ⟨⟨mean, std⟩, hp, h⟩ := Py.bind_ok.mp h
    obtain ⟨xb, hb, h⟩ := Py.bind_ok.mp h
    obtain ⟨fm, hfm, h⟩ := Py.bind_ok.mp h
    obtain ⟨a, ha, h⟩ := Py.bind_ok.mp h
    rw [hcorr] at ha
    cases ha
    cases h
  · unfold vfeiEval at h
    by_cases hk : s.isHK = false
    · rw [if_pos hk] at h; cases h
    rw [if_neg hk] at h
    obtain ⟨⟨mean, std⟩, hp, h⟩ := Py.bind_ok.mp h
    simp only [if_neg h0, if_neg h1] at h
    cases h
  · unfold vflcbEval at h
    obtain ⟨⟨mean, std⟩, hp, h⟩ := Py.bind_ok.mp h
    obtain ⟨⟨meanL, stdL⟩, hl, h⟩ := Py.bind_ok.mp h
    simp only [if_neg h0, if_neg h1] at h
    cases h
  · unfold epiEval at h
    obtain ⟨⟨mean, std⟩, hp, h⟩ := Py.bind_ok.mp h
    obtain ⟨a, ha, h⟩ := Py.bind_ok.mp h
    rw [hcorr] at ha
    cases ha
    cases h

/-! ## C80: co-Kriging in multi-fidelity Bayesian optimisation -/

/-- Querying any of the four acquisitions with a co-Kriging surrogate raises `AttributeError`. -/
theorem ck_query {W : Type} {nh nl d q : ℕ} (ck : CKObj d q) (t : CKFit nh nl d q) (Xh : Samples nh d) (Xl : Samples nl d) (de : DiffEvo W d) (cr fmin : ℝ) (kappa : ℝ × ℝ) (w : W) :
    aeiQuery none de (MFSurr.ofCK ck t Xh Xl) cr fmin w = .error .attributeError ∧ vfeiQuery none de (MFSurr.ofCK ck t Xh Xl) cr fmin w = .error .attributeError ∧
      vflcbQuery kappa none de (MFSurr.ofCK ck t Xh Xl) cr fmin w = .error .attributeError ∧ epiQuery none de (MFSurr.ofCK ck t Xh Xl) cr fmin w = .error .attributeError :=
  ⟨rfl, rfl, rfl, rfl⟩

/-- An `mfUnConsBayesOpt` whose surrogate is a trained co-Kriging model (surrogate_name='CoKriging') cannot do a single iteration with any acquisition of the library: whenever the stopping test lets the
loop start, `run_optimizer` raises `AttributeError`. -/
theorem C80_counterexample {W : Type} {nh nl d q : ℕ} (p : MFProblem ℝ (Fin d → ℝ) (MFSurr d) W) (s : MFState ℝ (Fin d → ℝ) (MFSurr d) W) (de : DiffEvo W d) (kappa : ℝ × ℝ)
    (hq : p.query = aeiQuery none de ∨ p.query = vfeiQuery none de ∨ p.query = vflcbQuery kappa none de ∨ p.query = epiQuery none de)
    (ck : CKObj d q) (t : CKFit nh nl d q) (Xh : Samples nh d) (Xl : Samples nl d) (hs : s.surrogate = MFSurr.ofCK ck t Xh Xl) (k : ℕ) (cr stop : ℝ)
    (hstart : optimumError s.best p.optimum > stop) : p.run (k + 1) cr stop s = .error .attributeError := by
  have hck := ck_query ck t Xh Xl de cr s.best kappa s.rng
  have hquery : p.query s.surrogate cr s.best s.rng = .error .attributeError := by
    rw [hs]
    rcases hq with e | e | e | e <;> rw [e]
    · exact hck.1
    · exact hck.2.1
    · exact hck.2.2.1
    · exact hck.2.2.2
  unfold MFProblem.run
  rw [MFProblem.loop]
  rw [Mfpml.BO.updateError_eq, if_pos hstart]
  unfold MFProblem.iterate
  rw [hquery]
  rfl

end Mfpml.Props
