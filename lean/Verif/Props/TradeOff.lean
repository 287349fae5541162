import Verif.Lemmas.TradeOff
import Verif.Props.Acquisitions

/-!
# C139: acquisitions prefer better and more uncertain predictions

Two points on the same surrogate: the second is predicted to be at least as good (its mean is not larger) and is at least as uncertain (its standard deviation is not smaller).  An acquisition that trades
exploitation against exploration never ranks the second point behind the first.  (The library minimises: smaller is preferred.)  Vocabulary: `Verif/Spec/Acquisitions.lean`.
-/

set_option linter.unusedSectionVars false

open MeasureTheory ProbabilityTheory Set Filter Topology

namespace Mfpml.Props

open Mfpml Mfpml.Acq Mfpml.GP Mfpml.Spec
open Mfpml.EA (Box)
open Mfpml.BO (npMin npMin_isLeast)

/-- The expected improvement itself: a lower mean and a larger standard deviation never decrease it, and strictly increase it if anything is strict and the outcome is not certain. -/
theorem C139_spec {best μ μ' σ σ' : ℝ} (hμ : μ' ≤ μ) (h0 : 0 ≤ σ) (hσ : σ ≤ σ') :
    expectedImprovement best μ σ ≤ expectedImprovement best μ' σ' ∧ (0 < σ' → μ' < μ ∨ σ < σ' → expectedImprovement best μ σ < expectedImprovement best μ' σ') :=
  ⟨expectedImprovement_mono hμ h0 hσ, expectedImprovement_strict hμ h0 hσ⟩

/-- Lower confidence bound, `κ₀, κ₁ ≥ 0`: exact. -/
theorem C139_lcb {d m m' : ℕ} {s : SFSurr d} {kappa : ℝ × ℝ} (hk0 : 0 ≤ kappa.1) (hk1 : 0 ≤ kappa.2) {x : Samples m d} {x' : Samples m' d} {mean std : Fin m → ℝ} {mean' std' : Fin m' → ℝ}
    (hp : s.predict m x = .ok (mean, std)) (hp' : s.predict m' x' = .ok (mean', std')) {v : Fin m → ℝ} {v' : Fin m' → ℝ} (h : lcbEval kappa s x = .ok v) (h' : lcbEval kappa s x' = .ok v')
    {j : Fin m} {j' : Fin m'} (hmean : mean' j' ≤ mean j) (hstd : std j ≤ std' j') : v' j' ≤ v j := by
  unfold lcbEval at h h'
  rw [hp] at h
  rw [hp'] at h'
  cases h; cases h'
  have h1 := mul_le_mul_of_nonneg_left hmean hk0
  have h2 := mul_le_mul_of_nonneg_left hstd hk1
  simp only
  linarith

/-- Augmented expected improvement at high fidelity: exact, and strict as soon as the second point is not certain and differs. -/
theorem C139_aei {d m m' : ℕ} {s : MFSurr d} (hs : MFNonneg s) {cr : ℝ} {x : Samples m d} {x' : Samples m' d} {mean std : Fin m → ℝ} {mean' std' : Fin m' → ℝ}
    (hp : s.predictStd m x = .ok (mean, std)) (hp' : s.predictStd m' x' = .ok (mean', std')) {v : Fin m → ℝ} {v' : Fin m' → ℝ} (h : aeiEval s cr 0 x = .ok v) (h' : aeiEval s cr 0 x' = .ok v')
    {j : Fin m} {j' : Fin m'} (hmean : mean' j' ≤ mean j) (hstd : std j ≤ std' j') :
    v' j' ≤ v j ∧ (2 ^ (-52 : ℤ) ≤ std' j' → mean' j' < mean j ∨ std j < std' j' → v' j' < v j) := by
  have hσ := hs.1 m x mean std hp j
  have hσ' := hs.1 m' x' mean' std' hp' j'
  unfold aeiEval at h h'
  rw [hp] at h
  rw [hp'] at h'
  obtain ⟨_, e1, h⟩ := Py.bind_ok.mp h
  obtain ⟨_, e1', h'⟩ := Py.bind_ok.mp h'
  cases e1; cases e1'
  obtain ⟨xb, hb, h⟩ := Py.bind_ok.mp h
  obtain ⟨xb', hb', h'⟩ := Py.bind_ok.mp h'
  rw [hb] at hb'
  cases hb'
  obtain ⟨fm, hfm, h⟩ := Py.bind_ok.mp h
  obtain ⟨fm', hfm', h'⟩ := Py.bind_ok.mp h'
  rw [hfm] at hfm'
  cases hfm'
  obtain ⟨a, ha, h⟩ := Py.bind_ok.mp h
  obtain ⟨a', ha', h'⟩ := Py.bind_ok.mp h'
  simp only [fidelityCorr, if_true] at ha ha'
  cases ha; cases ha'
  cases h; cases h'
  simp only [if_true, mul_one, neg_le_neg_iff, neg_lt_neg_iff]
  have hnn : ∀ a b c : ℝ, 0 ≤ aeiFormula a b c := by
    intro a b c
    by_cases hc : c < floatEps
    · rw [aeiFormula, if_pos hc]
    · rw [aeiFormula_eq _ _ hc]; exact expectedImprovement_nonneg _ _ _
  have hle : ∀ a b c : ℝ, aeiFormula a b c ≤ expectedImprovement a b c := by
    intro a b c
    by_cases hc : c < floatEps
    · rw [aeiFormula, if_pos hc]; exact expectedImprovement_nonneg _ _ _
    · rw [aeiFormula_eq _ _ hc]
  constructor
  · by_cases hc : std' j' < floatEps
    · rw [aeiFormula, if_pos (hstd.trans_lt hc)]
      exact hnn _ _ _
    · rw [aeiFormula_eq (pre := mean' j') _ hc]
      exact (hle _ _ _).trans (expectedImprovement_mono hmean hσ hstd)
  · intro hc hstrict
    rw [aeiFormula_eq (pre := mean' j') _ (not_lt.mpr hc)]
    exact (hle _ _ _).trans_lt (expectedImprovement_strict hmean hσ hstd (floatEps_pos.trans_le hc) hstrict)

theorem eiFormula_regEI (fmin y s : ℝ) : eiFormula fmin y s = regEI tiny9 (fmin - y) s := rfl

theorem regEI_slack {ε : ℝ} (hε : 0 < ε) {best μ μ' σ σ' : ℝ} (hμ : μ' ≤ μ) (h0 : 0 ≤ σ) (hσ : σ ≤ σ') : regEI ε (best - μ) σ ≤ regEI ε (best - μ') σ' + ε / 2 := by
  have e1 := regularised_ei best μ h0 hε
  have e2 := regularised_ei best μ' (h0.trans hσ) hε
  have h1 := expectedImprovement_mono (best := best) hμ (by linarith : 0 ≤ σ + ε) (by linarith : σ + ε ≤ σ' + ε)
  have h2 := mul_le_mul_of_nonneg_left (normPdf_le_half ((best - μ') / (σ' + ε))) hε.le
  have h3 := mul_nonneg hε.le (normPdf_pos ((best - μ) / (σ + ε))).le
  simp only [regEI]
  rw [e1, e2]
  linarith

/-- Expected improvement of the code.  Full claim: `v' j' ≤ v j`.  It is false (`C139_counterexample`), because of the `1e-9` added to the standard deviation; proved: it holds up to `5e-10` always, and exactly
where the mean of the first point is within `√(1e9·σ)·(σ + 1e-9)` of the incumbent, and so exactly for every point predicted to be at most as good as the incumbent plus that much. -/
theorem C139_ei_partial {d m m' : ℕ} {s : SFSurr d} (hs : SFNonneg s) {x : Samples m d} {x' : Samples m' d} {mean std : Fin m → ℝ} {mean' std' : Fin m' → ℝ}
    (hp : s.predict m x = .ok (mean, std)) (hp' : s.predict m' x' = .ok (mean', std')) {v : Fin m → ℝ} {v' : Fin m' → ℝ} (h : eiEval s x = .ok v) (h' : eiEval s x' = .ok v')
    {j : Fin m} {j' : Fin m'} (hmean : mean' j' ≤ mean j) (hstd : std j ≤ std' j') :
    v' j' ≤ v j + 5e-10 ∧
      ∀ fmin, IsLeast {y | y ∈ s.sampleY} fmin → (fmin - mean j) ^ 2 * 1e-9 ≤ std j * (std j + 1e-9) ^ 2 → v' j' ≤ v j := by
  have hσ := hs m x mean std hp j
  unfold eiEval at h h'
  obtain ⟨f, hm, h⟩ := Py.bind_ok.mp h
  obtain ⟨f', hm', h'⟩ := Py.bind_ok.mp h'
  rw [hm] at hm'
  cases hm'
  rw [hp] at h
  rw [hp'] at h'
  cases h; cases h'
  simp only [eiFormula_regEI]
  constructor
  · have := regEI_slack (best := f) tiny9_pos hmean hσ hstd
    have e : tiny9 / 2 = 5e-10 := by norm_num [tiny9]
    rw [e] at this
    linarith
  · intro fmin hf hreg
    have e := (npMin_isLeast hm).unique hf
    subst e
    have := regEI_mono (u' := f - mean' j') tiny9_pos hσ (by simpa [tiny9] using hreg) (by linarith) hstd
    linarith

/-- A surrogate that predicts the mean `x` at `x` with standard deviation `|c·x|`, for examples; one training response, 0. -/
noncomputable def lineSurr (c : ℝ) : SFSurr 1 :=
  { bounds := ⟨fun _ => 0, fun _ => 1⟩, sampleY := [0], predict := fun _ X => .ok (fun j => X j 0, fun j => |c * X j 0|) }

theorem lineSurr_nonneg (c : ℝ) : SFNonneg (lineSurr c) := by
  intro m X me st e j
  cases e
  exact abs_nonneg _

/-- The expected improvement of the code is not monotone: on a surrogate without uncertainty there are two points, both predicted to be worse than the incumbent, of which the one predicted to be better is
ranked behind the other. -/
theorem C139_counterexample : ∃ a b : ℝ, 0 < a ∧ a < b ∧ ∃ v v' : Fin 1 → ℝ, eiEval (lineSurr 0) (fun _ _ => b) = .ok v ∧ eiEval (lineSurr 0) (fun _ _ => a) = .ok v' ∧ v 0 < v' 0 := by
  have hlim : ∀ᶠ t in atBot, normPdf t < normCdf (-1) :=
    normPdf_tendsto_atBot.eventually_lt_const (normCdf_pos (-1))
  obtain ⟨t, ht, ht1⟩ := (hlim.and (Iio_mem_atBot (-1 : ℝ))).exists
  have ht1 : t < -1 := ht1
  have hpos := tiny9_pos
  refine ⟨tiny9, -(tiny9 * t), hpos, by nlinarith, _, _, rfl, rfl, ?_⟩
  have e0 : |(0 : ℝ) * -(tiny9 * t)| = 0 := by simp
  have e0' : |(0 : ℝ) * tiny9| = 0 := by simp
  have g := gLoss_nonneg t
  rw [gLoss] at g
  show -eiFormula 0 (-(tiny9 * t)) |0 * -(tiny9 * t)| < -eiFormula 0 tiny9 |0 * tiny9|
  rw [e0, e0', eiFormula, eiFormula]
  have e1 : (0 - -(tiny9 * t)) / (0 + tiny9) = t := by field_simp; ring
  have e2 : (0 - tiny9) / (0 + tiny9) = -1 := by field_simp; ring
  rw [e1, e2]
  nlinarith

/-- Probability of improvement (regularised standard deviation), same mean: more uncertainty is preferred by a point predicted to be worse than the incumbent, and not preferred by one predicted to be better. -/
theorem C139_pi {d m m' : ℕ} {s : SFSurr d} (hs : SFNonneg s) {x : Samples m d} {x' : Samples m' d} {mean std : Fin m → ℝ} {mean' std' : Fin m' → ℝ}
    (hp : s.predict m x = .ok (mean, std)) (hp' : s.predict m' x' = .ok (mean', std')) {v : Fin m → ℝ} {v' : Fin m' → ℝ} (h : piEval s x = .ok v) (h' : piEval s x' = .ok v')
    {fmin : ℝ} (hf : IsLeast {y | y ∈ s.sampleY} fmin) {j : Fin m} {j' : Fin m'} (hmean : mean' j' ≤ mean j) (hstd : std j ≤ std' j') :
    (fmin ≤ mean j → v' j' ≤ v j) ∧ (mean' j' = mean j → mean j ≤ fmin → v j ≤ v' j') := by
  have hσ := hs m x mean std hp j
  unfold piEval at h h'
  obtain ⟨f, hm, h⟩ := Py.bind_ok.mp h
  obtain ⟨f', hm', h'⟩ := Py.bind_ok.mp h'
  rw [hm] at hm'
  cases hm'
  have e := (npMin_isLeast hm).unique hf
  subst e
  rw [hp] at h
  rw [hp'] at h'
  cases h; cases h'
  have hpos : 0 < std j + tiny9 := by linarith [tiny9_pos]
  have hpos' : 0 < std' j' + tiny9 := by linarith [tiny9_pos]
  simp only [neg_le_neg_iff]
  refine ⟨fun hge => normCdf_mono ?_, fun he hle => normCdf_mono ?_⟩
  · rw [div_le_div_iff₀ hpos hpos']
    nlinarith
  · rw [he, div_le_div_iff₀ hpos' hpos]
    nlinarith

/-- Variable-fidelity expected improvement at high fidelity: up to `5e-9`. -/
theorem C139_vfei_partial {d m m' : ℕ} {s : MFSurr d} (hs : MFNonneg s) {fmin : ℝ} {x : Samples m d} {x' : Samples m' d} {mean std : Fin m → ℝ} {mean' std' : Fin m' → ℝ}
    (hp : s.predictStd m x = .ok (mean, std)) (hp' : s.predictStd m' x' = .ok (mean', std')) {v : Fin m → ℝ} {v' : Fin m' → ℝ} (h : vfeiEval fmin s 0 x = .ok v) (h' : vfeiEval fmin s 0 x' = .ok v')
    {j : Fin m} {j' : Fin m'} (hmean : mean' j' ≤ mean j) (hstd : std j ≤ std' j') :
    v' j' ≤ v j + 5e-9 ∧ (2 ^ (-52 : ℤ) ≤ std j → (fmin - mean j) ^ 2 * 1e-8 ≤ std j * (std j + 1e-8) ^ 2 → v' j' ≤ v j) := by
  have hσ := hs.1 m x mean std hp j
  unfold vfeiEval at h h'
  by_cases hk : s.isHK = false
  · rw [if_pos hk] at h; cases h
  rw [if_neg hk, hp] at h
  rw [if_neg hk, hp'] at h'
  obtain ⟨_, e1, h⟩ := Py.bind_ok.mp h
  obtain ⟨_, e1', h'⟩ := Py.bind_ok.mp h'
  cases e1; cases e1'
  simp only [if_true] at h h'
  cases h; cases h'
  have hform : ∀ y t : ℝ, vfeiFormula fmin y t t = if t < floatEps then 0 else regEI tiny8 (fmin - y) t := fun _ _ => rfl
  have e : tiny8 / 2 = 5e-9 := by norm_num [tiny8]
  have hslack := regEI_slack (best := fmin) tiny8_pos hmean hσ hstd
  rw [e] at hslack
  simp only [hform]
  constructor
  · by_cases hc : std j < floatEps
    · rw [if_pos hc]
      by_cases hc' : std' j' < floatEps
      · rw [if_pos hc']; norm_num
      · rw [if_neg hc']
        have hl : -(tiny8 / 2) ≤ regEI tiny8 (fmin - mean' j') (std' j') := regularised_ei_lower fmin (mean' j') (hσ.trans hstd) tiny8_pos
        rw [e] at hl
        linarith
    · rw [if_neg hc, if_neg (not_lt.mpr ((not_lt.mp hc).trans hstd))]
      linarith
  · intro hc hreg
    have hc : floatEps ≤ std j := hc
    rw [if_neg (not_lt.mpr hc), if_neg (not_lt.mpr (le_trans hc hstd))]
    have := regEI_mono (u' := fmin - mean' j') tiny8_pos hσ (by simpa [tiny8] using hreg) (by linarith) hstd
    linarith

/-- Constrained expected improvement: if moreover the predicted mean of each constraint is not larger, with the same standard deviation, the second point is not ranked behind the first by more than `5e-10`. -/
theorem C139_cei_partial {d : ℕ} {obj : SFSurr d} {cons : List (SFSurr d)} (ho : SFNonneg obj) (hc : ∀ s ∈ cons, SFNonneg s) {x x' : Fin d → ℝ} {v v' : Fin 1 → Fin 1 → ℝ}
    (h : ceiEval obj cons (onePoint x) = .ok v) (h' : ceiEval obj cons (onePoint x') = .ok v') {mean std mean' std' : Fin 1 → ℝ}
    (hp : obj.predict 1 (onePoint x) = .ok (mean, std)) (hp' : obj.predict 1 (onePoint x') = .ok (mean', std')) (hmean : mean' 0 ≤ mean 0) (hstd : std 0 ≤ std' 0)
    (hcons : ∀ s ∈ cons, ∀ mg sg mg' sg', s.predict 1 (onePoint x) = .ok (mg, sg) → s.predict 1 (onePoint x') = .ok (mg', sg') → mg' 0 ≤ mg 0 ∧ sg' 0 = sg 0) :
    v' 0 0 ≤ v 0 0 + 5e-10 := by
  have hσ := ho 1 _ mean std hp 0
  unfold ceiEval at h h'
  obtain ⟨ei, he, h⟩ := Py.bind_ok.mp h
  obtain ⟨pof, hpf, h⟩ := Py.bind_ok.mp h
  obtain ⟨ei', he', h'⟩ := Py.bind_ok.mp h'
  obtain ⟨pof', hpf', h'⟩ := Py.bind_ok.mp h'
  cases h; cases h'
  unfold ceiEi at he he'
  obtain ⟨f, hm, he⟩ := Py.bind_ok.mp he
  obtain ⟨f', hm', he'⟩ := Py.bind_ok.mp he'
  rw [hm] at hm'
  cases hm'
  rw [hp] at he
  rw [hp'] at he'
  cases he; cases he'
  unfold ceiPof at hpf hpf'
  obtain ⟨ps, hps, hpf⟩ := Py.bind_ok.mp hpf
  obtain ⟨ps', hps', hpf'⟩ := Py.bind_ok.mp hpf'
  cases hpf; cases hpf'
  have hq := pofColumns_ok hps
  have hq' := pofColumns_ok hps'
  have hprod : ∀ (cs : List (SFSurr d)) (qs qs' : List ((Fin 1 → ℝ) × (Fin 1 → ℝ))), (∀ s ∈ cs, s ∈ cons) → List.Forall₂ (fun s p => s.predict 1 (onePoint x) = .ok p) cs qs →
      List.Forall₂ (fun s p => s.predict 1 (onePoint x') = .ok p) cs qs' →
      0 ≤ (qs.map fun p => normCdf (0 - p.1 0 / (p.2 0 + tiny9))).prod ∧ (qs.map fun p => normCdf (0 - p.1 0 / (p.2 0 + tiny9))).prod ≤ (qs'.map fun p => normCdf (0 - p.1 0 / (p.2 0 + tiny9))).prod ∧
        (qs'.map fun p => normCdf (0 - p.1 0 / (p.2 0 + tiny9))).prod ≤ 1 := by
    intro cs
    induction cs with
    | nil =>
      intro qs qs' _ h1 h2
      cases h1; cases h2
      simp
    | cons s cs ih =>
      intro qs qs' hmem h1 h2
      cases h1 with
      | cons a1 r1 =>
        cases h2 with
        | cons a2 r2 =>
          obtain ⟨i0, i1, i2⟩ := ih _ _ (fun s hs => hmem s (List.mem_cons_of_mem _ hs)) r1 r2
          have hs := hmem s (by simp)
          obtain ⟨g1, g2⟩ := hcons s hs _ _ _ _ a1 a2
          have hn := hc s hs 1 _ _ _ a1 0
          have hpos := tiny9_pos
          simp only [List.map_cons, List.prod_cons]
          refine ⟨mul_nonneg (normCdf_nonneg _) i0, mul_le_mul (normCdf_mono ?_) i1 i0 (normCdf_nonneg _), mul_le_one₀ (normCdf_le_one _) (i0.trans i1) i2⟩
          rw [g2]
          exact sub_le_sub_left (div_le_div_of_nonneg_right g1 (by linarith)) _
  obtain ⟨p0, p1, p2⟩ := hprod cons ps ps' (fun _ h => h) hq hq'
  have e : tiny9 / 2 = 5e-10 := by norm_num [tiny9]
  have hslack := regEI_slack (best := f) tiny9_pos hmean hσ hstd
  have hl : -(tiny9 / 2) ≤ regEI tiny9 (f - mean' 0) (std' 0) := regularised_ei_lower f (mean' 0) (hσ.trans hstd) tiny9_pos
  rw [e] at hslack hl
  simp only [eiFormula_regEI]
  set A := regEI tiny9 (f - mean 0) (std 0)
  set B := regEI tiny9 (f - mean' 0) (std' 0)
  set p := (ps.map fun p => normCdf (0 - p.1 0 / (p.2 0 + tiny9))).prod
  set q := (ps'.map fun p => normCdf (0 - p.1 0 / (p.2 0 + tiny9))).prod
  rcases le_total 0 B with hB | hB
  · nlinarith
  · rcases le_total 0 A with hA | hA
    · nlinarith
    · nlinarith

/-- The hypotheses are met: on `lineSurr 1` the point `-2` has the lower mean and the larger standard deviation than the point 1, the exact region contains the point 1, and every evaluation succeeds. -/
example : SFNonneg (lineSurr 1) ∧ (∃ v, eiEval (lineSurr 1) (fun (_ : Fin 1) _ => 1) = .ok v) ∧ (∃ v, piEval (lineSurr 1) (fun (_ : Fin 1) _ => -2) = .ok v) ∧
    (∃ v, lcbEval (1, 1.96) (lineSurr 1) (fun (_ : Fin 1) _ => -2) = .ok v) ∧ IsLeast {y : ℝ | y ∈ (lineSurr 1).sampleY} 0 ∧ (-2 : ℝ) ≤ 1 ∧ |(1 : ℝ) * 1| ≤ |(1 : ℝ) * -2| ∧
    ((0 : ℝ) - 1) ^ 2 * 1e-9 ≤ |(1 : ℝ) * 1| * (|(1 : ℝ) * 1| + 1e-9) ^ 2 := by
  refine ⟨lineSurr_nonneg 1, ⟨_, rfl⟩, ⟨_, rfl⟩, ⟨_, rfl⟩, ?_, by norm_num, by norm_num, by norm_num⟩
  simp [lineSurr, IsLeast, lowerBounds]

/-- The same for the constrained and the multi-fidelity acquisitions. -/
example : (∃ v, ceiEval (lineSurr 1) [lineSurr 0, lineSurr 0] (onePoint fun _ => 1) = .ok v) ∧ (∃ v, ceiEval (lineSurr 1) [lineSurr 0, lineSurr 0] (onePoint fun _ => -2) = .ok v) ∧
    MFNonneg (constMF true 3 1 5 4 1) ∧ (∃ v, aeiEval (constMF true 3 1 5 4 1) 2 0 (fun (_ : Fin 2) _ => 0) = .ok v) ∧ ∃ v, vfeiEval 3 (constMF true 3 1 5 4 1) 0 (fun (_ : Fin 2) _ => 0) = .ok v := by
  refine ⟨⟨_, rfl⟩, ⟨_, rfl⟩, constMF_nonneg _ _ _ _ (by norm_num) (by norm_num), ?_, ⟨_, rfl⟩⟩
  norm_num [aeiEval, effectiveBest, constMF, Bind.bind, Except.bind, fidelityCorr, Mfpml.BO.npArgmin, Mfpml.BO.argminScan, Mfpml.BO.npRow, List.ofFn_succ]

end Mfpml.Props
