import Verif.Spec.Uniform
import Verif.Props.SFSamplers
import Verif.Props.MFSamplers
import Verif.Props.PSO
import Verif.Props.DE

/-!
# The distribution of samples and initial populations (C129), and what it gives (C130)
-/

open MeasureTheory ProbabilityTheory

namespace Mfpml.Props

open Mfpml.Spec Mfpml.Sampling
open Mfpml.EA (Box)

variable {d n : ℕ}

/-! ### Scaling a uniform draw -/

theorem map_uniformIcc {a b : ℝ} (h : a < b) : (uniformIcc 0 1).map (fun u => a + u * (b - a)) = uniformIcc a b := by
  have hc : 0 < b - a := sub_pos.mpr h
  have hm : Measurable fun u : ℝ => a + u * (b - a) := by fun_prop
  have hpre : (fun u : ℝ => a + u * (b - a)) ⁻¹' Set.Icc a b = Set.Icc 0 1 := by
    ext u
    simp only [Set.mem_preimage, Set.mem_Icc]
    constructor
    · rintro ⟨h1, h2⟩
      exact ⟨by by_contra hu; push Not at hu; nlinarith, by by_contra hu; push Not at hu; nlinarith⟩
    · rintro ⟨h1, h2⟩
      exact ⟨by nlinarith, by nlinarith⟩
  have hvol : (volume : Measure ℝ).map (fun u => a + u * (b - a)) = (ENNReal.ofReal (b - a))⁻¹ • volume := by
    have h1 : (fun u : ℝ => a + u * (b - a)) = (fun v => a + v) ∘ (fun u => u * (b - a)) := rfl
    rw [h1, ← Measure.map_map (by fun_prop) (by fun_prop), Real.map_volume_mul_right hc.ne', Measure.map_smul, map_add_left_eq_self, abs_of_pos (inv_pos.mpr hc), ENNReal.ofReal_inv_of_pos hc]
  unfold uniformIcc
  rw [Measure.map_smul, ← hpre, ← Measure.restrict_map hm measurableSet_Icc, hvol, Measure.restrict_smul, Real.volume_Icc, hpre, Real.volume_Icc]
  simp

theorem scalePt_uniform (b : Box ℝ d) (hb : ∀ j, b.low j < b.high j) : (uniformBox (fun _ => 0) fun _ => 1).map (scalePt b) = uniformBox b.low b.high := by
  have h1 : ∀ j, IsProbabilityMeasure (uniformIcc (b.low j) (b.high j)) := fun j => uniformIcc_prob (hb j)
  have h0 : IsProbabilityMeasure (uniformIcc 0 1) := uniformIcc_prob one_pos
  unfold uniformBox
  have : ∀ j : Fin d, SigmaFinite ((uniformIcc 0 1).map fun u => b.low j + u * (b.high j - b.low j)) := fun j => by rw [map_uniformIcc (hb j)]; infer_instance
  rw [show scalePt b = fun u j => b.low j + u j * (b.high j - b.low j) from rfl, Measure.pi_map_pi (f := fun j u => b.low j + u * (b.high j - b.low j)) (fun j => by fun_prop)]
  simp only [map_uniformIcc (hb _)]

theorem scalePt_measurable (b : Box ℝ d) : Measurable (scalePt b) := by
  unfold scalePt
  fun_prop

theorem scalePts_uniform (b : Box ℝ d) (hb : ∀ j, b.low j < b.high j) :
    (independentUniform n (fun _ : Fin d => 0) fun _ => 1).map (fun u i => scalePt b (u i)) = independentUniform n b.low b.high := by
  have h1 : IsProbabilityMeasure (uniformBox b.low b.high) := uniformBox_prob hb
  have h0 : IsProbabilityMeasure (uniformBox (fun _ : Fin d => 0) fun _ => 1) := uniformBox_prob fun _ => one_pos
  unfold independentUniform
  have : ∀ j : Fin n, SigmaFinite ((uniformBox (fun _ : Fin d => 0) fun _ => 1).map (scalePt b)) := fun j => by rw [scalePt_uniform b hb]; infer_instance
  rw [Measure.pi_map_pi (fun j => (scalePt_measurable b).aemeasurable)]
  simp only [scalePt_uniform b hb]

variable {Ω : Type} [MeasurableSpace Ω] {P : Measure Ω}

theorem hasLaw_scalePt {b : Box ℝ d} (hb : ∀ j, b.low j < b.high j) {u : Ω → Pt ℝ d} (h : HasLaw u (uniformBox (fun _ => 0) fun _ => 1) P) :
    HasLaw (fun ω => scalePt b (u ω)) (uniformBox b.low b.high) P :=
  ⟨(scalePt_measurable b).comp_aemeasurable h.aemeasurable, by
    rw [← scalePt_uniform b hb, ← h.map_eq, AEMeasurable.map_map_of_aemeasurable (scalePt_measurable b).aemeasurable h.aemeasurable]; rfl⟩

theorem hasLaw_scalePts {b : Box ℝ d} (hb : ∀ j, b.low j < b.high j) {u : Ω → Fin n → Pt ℝ d} (h : HasLaw u (independentUniform n (fun _ => 0) fun _ => 1) P) :
    HasLaw (fun ω i => scalePt b (u ω i)) (independentUniform n b.low b.high) P := by
  have hm : Measurable fun (u : Fin n → Pt ℝ d) i => scalePt b (u i) := by
    refine measurable_pi_lambda _ fun i => (scalePt_measurable b).comp (measurable_pi_apply i)
  exact ⟨hm.comp_aemeasurable h.aemeasurable, by
    rw [← scalePts_uniform b hb, ← h.map_eq, AEMeasurable.map_map_of_aemeasurable hm.aemeasurable h.aemeasurable]; rfl⟩

theorem getD_scale (b : Box ℝ d) (us : List (Pt ℝ d)) {i : ℕ} (hi : i < us.length) : (scaleSamples b us).getD i 0 = scalePt b (us.getD i 0) := by
  unfold scaleSamples
  rw [List.getD_eq_getElem?_getD, List.getD_eq_getElem?_getD, List.getElem?_map, List.getElem?_eq_getElem hi]
  rfl

/-! ### C129 -/

/-- **C129 (`RandomSampler`).** If the numbers drawn are independent and uniform on `[0, 1]`, the samples are independent and uniform on the design space.  (An ideal generator: that seeding makes the draws a function of an
integer, `Contract.seed_reset`, is not assumed, as no such draws are exactly uniform.) -/
theorem C129_random (E : Env ℝ d) (hlen : ∀ s, (E.random n s).1.length = n) (b : Box ℝ d) (hb : ∀ j, b.low j < b.high j) (seed : Ω → ℕ) (s : Ω → E.S)
    (hu : HasLaw (fun ω (i : Fin n) => (E.random n (E.seed (seed ω) (s ω))).1.getD i 0) (independentUniform n (fun _ => 0) fun _ => 1) P) :
    HasLaw (fun ω (i : Fin n) => (randomSamples E b n (seed ω) (s ω)).1.getD i 0) (independentUniform n b.low b.high) P := by
  refine (hasLaw_scalePts hb hu).congr (Filter.Eventually.of_forall fun ω => funext fun i => ?_)
  exact getD_scale b _ (by rw [hlen]; exact i.isLt)

/-- **C129 (`LatinHyperCube`).** Each sample is uniform on the design space if each draw is uniform on the unit cube (the samples of one call are not independent). -/
theorem C129_lhs (E : Env ℝ d) (hlen : ∀ seed s, (E.lhs seed n s).1.length = n) (b : Box ℝ d) (hb : ∀ j, b.low j < b.high j) (seed : Ω → Option ℕ) (s : Ω → E.S) (i : ℕ) (hi : i < n)
    (hu : HasLaw (fun ω => (E.lhs (seed ω) n (s ω)).1.getD i 0) (uniformBox (fun _ => 0) fun _ => 1) P) :
    HasLaw (fun ω => (lhsSamples E b n (seed ω) (s ω)).1.getD i 0) (uniformBox b.low b.high) P := by
  refine (hasLaw_scalePt hb hu).congr (Filter.Eventually.of_forall fun ω => ?_)
  exact getD_scale b _ (by rw [hlen]; exact hi)

/-- **C129 (`SobolSequence`, up to 30 samples: more are refused, C18).** Each sample is uniform on the design space if each point of the scrambled sequence is uniform on the unit cube. -/
theorem C129_sobol (E : Env ℝ d) (b : Box ℝ d) (hb : ∀ j, b.low j < b.high j) (numSkip : Option ℕ) (hn : n ≤ 30) (hcap : numSkip.getD d + n ≤ 2 ^ 30) (seed : Ω → Option ℕ) (s : Ω → E.S) (i : ℕ) (hi : i < n)
    (hu : HasLaw (fun ω => (E.sobol (seed ω) (s ω)).1 (numSkip.getD d + i)) (uniformBox (fun _ => 0) fun _ => 1) P) :
    ∃ samples : Ω → List (Pt ℝ d), (∀ ω, ∃ s', sobolSamples E b numSkip n (seed ω) (s ω) = .ok (samples ω, s')) ∧ HasLaw (fun ω => (samples ω).getD i 0) (uniformBox b.low b.high) P := by
  choose samples s' h1 h2 h3 using fun ω => C18_sobol_block_partial E b numSkip n (seed ω) (s ω) hn hcap
  refine ⟨samples, fun ω => ⟨s' ω, h1 ω⟩, (hasLaw_scalePt hb hu).congr (Filter.Eventually.of_forall fun ω => ?_)⟩
  show (samples ω).getD i 0 = _
  rw [List.getD_eq_getElem?_getD, h3 ω i hi]
  rfl

end Mfpml.Props

namespace Mfpml.Props

open Mfpml.Spec Mfpml.EA

variable {p D : ℕ} {Ω : Type} [MeasurableSpace Ω] {P : Measure Ω}

theorem locInit_eq (b : Box ℝ D) (u : Pop ℝ p D) : locInit b u = fun i => Sampling.scalePt b (u i) := by
  funext i j
  simp only [locInit, Sampling.scalePt]
  ring

theorem pso_first {cfg : PSOCfg ℝ} {b : Box ℝ D} {func : Pop ℝ p D → Fin p → ℝ} {stop : Option ℝ} {rnd : PSORand ℝ p D} {r : PSOResult ℝ p D} (h : psoRun cfg b func stop rnd = .ok r) :
    r.allSamples 0 = locInit b rnd.pos := by
  cases p with
  | zero => simp [psoRun] at h
  | succ p =>
    obtain ⟨last, _, _, _, _, _, _, h7, _⟩ := psoRun_ok cfg b func rnd h
    rw [h7, (psoSeq_row cfg b func rnd last 0 (Nat.zero_le _)).1]
    rfl

theorem de_first {cfg : DECfg ℝ} {b : Box ℝ D} {func : Pop ℝ p D → Fin p → ℝ} {stop : Option ℝ} {rnd : DERand ℝ p D} {r : Result ℝ p D} (h : deRun cfg b func stop rnd = .ok r) :
    r.allSamples 0 = locInit b rnd.pos ∧ r.allResponses 0 = func (locInit b rnd.pos) := by
  cases p with
  | zero => simp [deRun] at h
  | succ p =>
    obtain ⟨last, _, _, _, _, _, _, _, h7, h8, _⟩ := deRun_ok cfg b func rnd h
    obtain ⟨e1, e2, _⟩ := deSeq_rows_stable cfg b func rnd last 0 (Nat.zero_le _)
    rw [h7, h8, e1, e2]
    exact ⟨by simp [deSeq, deInit], by simp [deSeq, deInit]⟩

/-- **C129 (PSO).** If the numbers drawn are independent and uniform on `[0, 1]`, the members of the first population evaluated are independent and uniform on the design space. -/
theorem C129_pso (cfg : PSOCfg ℝ) (b : Box ℝ D) (hb : ∀ j, b.low j < b.high j) (func : Pop ℝ p D → Fin p → ℝ) (stop : Option ℝ) (rnd : Ω → PSORand ℝ p D)
    (hu : HasLaw (fun ω => (rnd ω).pos) (independentUniform p (fun _ => 0) fun _ => 1) P) (r : Ω → PSOResult ℝ p D) (h : ∀ ω, psoRun cfg b func stop (rnd ω) = .ok (r ω)) :
    HasLaw (fun ω => (r ω).allSamples 0) (independentUniform p b.low b.high) P := by
  refine (hasLaw_scalePts hb hu).congr (Filter.Eventually.of_forall fun ω => ?_)
  show (r ω).allSamples 0 = _
  rw [pso_first (h ω), locInit_eq]

/-- **C129 (DE).** As for PSO. -/
theorem C129_de (cfg : DECfg ℝ) (b : Box ℝ D) (hb : ∀ j, b.low j < b.high j) (func : Pop ℝ p D → Fin p → ℝ) (stop : Option ℝ) (rnd : Ω → DERand ℝ p D)
    (hu : HasLaw (fun ω => (rnd ω).pos) (independentUniform p (fun _ => 0) fun _ => 1) P) (r : Ω → Result ℝ p D) (h : ∀ ω, deRun cfg b func stop (rnd ω) = .ok (r ω)) :
    HasLaw (fun ω => (r ω).allSamples 0) (independentUniform p b.low b.high) P := by
  refine (hasLaw_scalePts hb hu).congr (Filter.Eventually.of_forall fun ω => ?_)
  show (r ω).allSamples 0 = _
  rw [(de_first (h ω)).1, locInit_eq]

/-! ### C130 -/

theorem all_worse (b : Box ℝ D) (hb : ∀ j, b.low j < b.high j) {u : Ω → Pop ℝ p D} (hu : HasLaw u (independentUniform p (fun _ => 0) fun _ => 1) P) {f : (Fin D → ℝ) → ℝ} (hf : Measurable f) (v : ℝ) :
    P {ω | ∀ i, v < f (locInit b (u ω) i)} = uniformBox b.low b.high {x | v < f x} ^ p := by
  have h := hasLaw_scalePts hb hu
  have h1 : IsProbabilityMeasure (uniformBox b.low b.high) := uniformBox_prob hb
  have hset : MeasurableSet {x | v < f x} := measurableSet_lt measurable_const hf
  have he : {x : Fin p → Fin D → ℝ | ∀ i, v < f (x i)} = Set.univ.pi fun _ => {x | v < f x} := by ext x; simp
  have hm : MeasurableSet {x : Fin p → Fin D → ℝ | ∀ i, v < f (x i)} := by rw [he]; exact MeasurableSet.univ_pi fun _ => hset
  have := h.measure_eq hm
  simp only [locInit_eq]
  rw [this, he, independentUniform, Measure.pi_pi]
  simp

/-- **C130 (PSO).** If the initial draws are independent and uniform, the value returned is worse than `v` with a probability of at most `s ^ num_pop`, where `s` is the share of the design space on which the objective is worse than
`v`; nothing is assumed about the other draws. -/
theorem C130_pso (cfg : PSOCfg ℝ) (b : Box ℝ D) (hb : ∀ j, b.low j < b.high j) (f : (Fin D → ℝ) → ℝ) (hf : Measurable f) (stop : Option ℝ) (rnd : Ω → PSORand ℝ p D)
    (hu : HasLaw (fun ω => (rnd ω).pos) (independentUniform p (fun _ => 0) fun _ => 1) P) (v : ℝ) :
    P {ω | ∃ r, psoRun cfg b (fun q i => f (q i)) stop (rnd ω) = .ok r ∧ v < r.retY} ≤ uniformBox b.low b.high {x | v < f x} ^ p := by
  rw [← all_worse b hb hu hf v]
  refine measure_mono ?_
  rintro ω ⟨r, hr, hv⟩ i
  obtain ⟨last, hl, _⟩ := C05_pso_stopping_rule hr
  obtain ⟨hmin, _⟩ := (C02_pso_running_minimum hr last hl).2.2
  have h1 := ((C03_pso_best_attained hr).1 last hl).2.1 0 (Nat.zero_le _)
  have h2 := hmin 0 (Nat.zero_le _) i
  rw [h1, pso_first hr] at h2
  exact hv.trans_le h2

/-- **C130 (DE).** As for PSO. -/
theorem C130_de (cfg : DECfg ℝ) (b : Box ℝ D) (hb : ∀ j, b.low j < b.high j) (f : (Fin D → ℝ) → ℝ) (hf : Measurable f) (stop : Option ℝ) (rnd : Ω → DERand ℝ p D)
    (hu : HasLaw (fun ω => (rnd ω).pos) (independentUniform p (fun _ => 0) fun _ => 1) P) (v : ℝ) :
    P {ω | ∃ r, deRun cfg b (fun q i => f (q i)) stop (rnd ω) = .ok r ∧ v < r.retY} ≤ uniformBox b.low b.high {x | v < f x} ^ p := by
  rw [← all_worse b hb hu hf v]
  refine measure_mono ?_
  rintro ω ⟨r, hr, hv⟩ i
  have hl : ∃ last, LastGen cfg.numGen stop r.bestYHist last := by
    cases p with
    | zero => simp [deRun] at hr
    | succ p =>
      obtain ⟨last, hl, _⟩ := deRun_ok cfg b _ (rnd ω) hr
      exact ⟨last, hl⟩
  obtain ⟨last, hl⟩ := hl
  obtain ⟨h1, _, h3, _⟩ := C10_de_running_minimum hr last hl
  have h2 := (h1 last le_rfl).1.1 0 (Nat.zero_le _) i
  rw [(de_first hr).2, ← h3] at h2
  exact hv.trans_le h2

theorem uniformIcc_near {a b x ε : ℝ} (h : a < b) (hx : x ∈ Set.Icc a b) (hε : 0 < ε) : 0 < uniformIcc a b (Set.Ioo (x - ε) (x + ε)) := by
  unfold uniformIcc
  rw [Measure.smul_apply, smul_eq_mul, Measure.restrict_apply measurableSet_Ioo]
  refine ENNReal.mul_pos (by simp) (ne_of_gt ?_)
  have hsub : Set.Ioo (max a (x - ε)) (min b (x + ε)) ⊆ Set.Ioo (x - ε) (x + ε) ∩ Set.Icc a b := fun y hy =>
    ⟨⟨(le_max_right _ _).trans_lt hy.1, hy.2.trans_le (min_le_right _ _)⟩, ((le_max_left _ _).trans_lt hy.1).le, (hy.2.trans_le (min_le_left _ _)).le⟩
  refine lt_of_lt_of_le ?_ (measure_mono hsub)
  rw [Real.volume_Ioo, ENNReal.ofReal_pos, sub_pos]
  exact max_lt (lt_min h (by linarith [hx.1])) (lt_min (by linarith [hx.2]) (by linarith))

/-- The share of the design space on which a continuous function is worse than a value above its minimum is less than one. -/
theorem share_lt_one (b : Box ℝ D) (hb : ∀ j, b.low j < b.high j) {f : (Fin D → ℝ) → ℝ} (hf : Continuous f) {x : Fin D → ℝ} (hx : InBox b.low b.high x) {v : ℝ} (hv : f x < v) :
    uniformBox b.low b.high {x | v < f x} < 1 := by
  have h1 : IsProbabilityMeasure (uniformBox b.low b.high) := uniformBox_prob hb
  have h1' : ∀ j, IsProbabilityMeasure (uniformIcc (b.low j) (b.high j)) := fun j => uniformIcc_prob (hb j)
  have hopen : IsOpen {y | f y < v} := isOpen_lt hf continuous_const
  obtain ⟨ε, hε, hball⟩ := Metric.isOpen_iff.mp hopen x hv
  have hpos : 0 < uniformBox b.low b.high (Set.univ.pi fun j => Set.Ioo (x j - ε) (x j + ε)) := by
    unfold uniformBox
    rw [Measure.pi_pi]
    exact CanonicallyOrderedAdd.prod_pos.mpr fun j _ => uniformIcc_near (hb j) ⟨(hx j).1, (hx j).2⟩ hε
  have hsub : {y | v < f y} ⊆ (Set.univ.pi fun j => Set.Ioo (x j - ε) (x j + ε))ᶜ := by
    intro y hy hy'
    have : y ∈ Metric.ball x ε := by
      rw [Metric.mem_ball, dist_pi_lt_iff hε]
      intro j
      have := hy' j (Set.mem_univ j)
      rw [Real.dist_eq, abs_lt]
      exact ⟨by linarith [this.1], by linarith [this.2]⟩
    exact lt_asymm (show f y < v from hball this) hy
  refine lt_of_le_of_lt (measure_mono hsub) ?_
  rw [prob_compl_eq_one_sub (MeasurableSet.univ_pi fun j => measurableSet_Ioo)]
  exact ENNReal.sub_lt_self (by simp) (by simp) hpos.ne'

/-- **C130 (large populations, PSO).** For a continuous objective the probability of a returned value more than `ε` above the minimum over the design space tends to zero as the population grows, whatever the other settings. -/
theorem C130_pso_large (b : Box ℝ D) (hb : ∀ j, b.low j < b.high j) (f : (Fin D → ℝ) → ℝ) (hf : Continuous f) (x : Fin D → ℝ) (hx : InBox b.low b.high x) (ε : ℝ) (hε : 0 < ε) (δ : ENNReal) (hδ : 0 < δ) :
    ∃ N, ∀ p ≥ N, ∀ (Ω : Type) [MeasurableSpace Ω] (P : Measure Ω) (cfg : PSOCfg ℝ) (stop : Option ℝ) (rnd : Ω → PSORand ℝ p D),
      HasLaw (fun ω => (rnd ω).pos) (independentUniform p (fun _ => 0) fun _ => 1) P →
      P {ω | ∃ r, psoRun cfg b (fun q i => f (q i)) stop (rnd ω) = .ok r ∧ f x + ε < r.retY} ≤ δ := by
  have h := ENNReal.tendsto_pow_atTop_nhds_zero_of_lt_one (share_lt_one b hb hf hx (v := f x + ε) (by linarith))
  obtain ⟨N, hN⟩ := Filter.eventually_atTop.mp (h.eventually (ge_mem_nhds hδ))
  exact ⟨N, fun p hp Ω _ P cfg stop rnd hu => (C130_pso cfg b hb f hf.measurable stop rnd hu _).trans (hN p hp)⟩

/-- **C130 (large populations, DE).** -/
theorem C130_de_large (b : Box ℝ D) (hb : ∀ j, b.low j < b.high j) (f : (Fin D → ℝ) → ℝ) (hf : Continuous f) (x : Fin D → ℝ) (hx : InBox b.low b.high x) (ε : ℝ) (hε : 0 < ε) (δ : ENNReal) (hδ : 0 < δ) :
    ∃ N, ∀ p ≥ N, ∀ (Ω : Type) [MeasurableSpace Ω] (P : Measure Ω) (cfg : DECfg ℝ) (stop : Option ℝ) (rnd : Ω → DERand ℝ p D),
      HasLaw (fun ω => (rnd ω).pos) (independentUniform p (fun _ => 0) fun _ => 1) P →
      P {ω | ∃ r, deRun cfg b (fun q i => f (q i)) stop (rnd ω) = .ok r ∧ f x + ε < r.retY} ≤ δ := by
  have h := ENNReal.tendsto_pow_atTop_nhds_zero_of_lt_one (share_lt_one b hb hf hx (v := f x + ε) (by linarith))
  obtain ⟨N, hN⟩ := Filter.eventually_atTop.mp (h.eventually (ge_mem_nhds hδ))
  exact ⟨N, fun p hp Ω _ P cfg stop rnd hu => (C130_de cfg b hb f hf.measurable stop rnd hu _).trans (hN p hp)⟩

/-! ### Worlds that meet the hypotheses -/

/-- Draws with the distribution assumed: take the draws themselves as the outcomes. -/
theorem hasLaw_id : HasLaw (fun u : Fin p → Fin D → ℝ => u) (independentUniform p (fun _ => 0) fun _ => 1) (independentUniform p (fun _ => 0) fun _ => 1) :=
  ⟨aemeasurable_id, Measure.map_id⟩

/-- A world that satisfies the hypotheses of `C129_pso`, `C130_pso` and `C130_pso_large`, in which the runs return. -/
example (f : (Fin 1 → ℝ) → ℝ) : ∃ (rnd : (Fin 4 → Fin 1 → ℝ) → PSORand ℝ 4 1) (cfg : PSOCfg ℝ) (b : Box ℝ 1), (∀ j, b.low j < b.high j) ∧
    HasLaw (fun ω => (rnd ω).pos) (independentUniform 4 (fun _ => 0) fun _ => 1) (independentUniform 4 (fun _ => 0) fun _ => 1) ∧ ∀ ω, ∃ r, psoRun cfg b (fun q i => f (q i)) none (rnd ω) = .ok r := by
  refine ⟨fun ω => { pos := ω, vel := fun _ _ => 0, repl := fun _ _ _ _ => 0 }, { numGen := 3, weight := 1, cognition := 1, social := 1, maxVRate := 1 }, ⟨fun _ => 0, fun _ => 1⟩, fun _ => one_pos, hasLaw_id, fun ω => ?_⟩
  exact (C14_pso_returns_iff _ _ _ _ _ (fun j => by norm_num)).1.mpr ⟨by norm_num, by norm_num, by norm_num⟩

/-- The same for `C129_de`, `C130_de` and `C130_de_large`. -/
example (f : (Fin 1 → ℝ) → ℝ) : ∃ (rnd : (Fin 4 → Fin 1 → ℝ) → DERand ℝ 4 1) (cfg : DECfg ℝ) (b : Box ℝ 1), (∀ j, b.low j < b.high j) ∧
    HasLaw (fun ω => (rnd ω).pos) (independentUniform 4 (fun _ => 0) fun _ => 1) (independentUniform 4 (fun _ => 0) fun _ => 1) ∧ ∀ ω, ∃ r, deRun cfg b (fun q i => f (q i)) none (rnd ω) = .ok r := by
  refine ⟨fun ω => { pos := ω, choice3 := fun _ _ _ => 0, choice2 := fun _ _ _ => 0, c := fun _ _ => 0, cr := fun _ _ _ => 0, repl := fun _ _ _ _ => 0 }, { numGen := 3, stepSize := 1, crossoverRate := 1, strategy := "DE/rand/1/bin" },
    ⟨fun _ => 0, fun _ => 1⟩, fun _ => one_pos, hasLaw_id, fun ω => ?_⟩
  exact (C14_de_returns_iff _ _ _ _ _).1.mpr ⟨by norm_num, by norm_num, .inl ⟨rfl, by norm_num⟩⟩

open Mfpml.Sampling in
/-- A world whose draws are its state. -/
noncomputable def idealEnv (n d : ℕ) : Env ℝ d where
  S := Fin n → Pt ℝ d
  lhs sd m s := (List.ofFn fun i : Fin m => if h : sd = none ∧ i.val < n then s ⟨i, h.2⟩ else 0, s)
  sobol sd s := (fun i => if h : sd = none ∧ i < n then s ⟨i, h.2⟩ else 0, s)
  seed _ s := s
  random m s := (List.ofFn fun i : Fin m => if h : i.val < n then s ⟨i, h⟩ else 0, s)
  choice _ k s := (List.range k, s)

open Mfpml.Sampling in
/-- The hypotheses of `C129_random` are met. -/
example {n d : ℕ} (seed : ℕ) : HasLaw (fun ω (i : Fin n) => ((idealEnv n d).random n ((idealEnv n d).seed seed ω)).1.getD i 0) (independentUniform n (fun _ => 0) fun _ => 1)
    (independentUniform n (fun _ => 0) fun _ => 1) := by
  refine hasLaw_id.congr (Filter.Eventually.of_forall fun ω => funext fun i => ?_)
  simp [idealEnv, List.getD_eq_getElem?_getD]

theorem hasLaw_row {n d : ℕ} (i : Fin n) : HasLaw (fun u : Fin n → Fin d → ℝ => u i) (uniformBox (fun _ => 0) fun _ => 1) (independentUniform n (fun _ => 0) fun _ => 1) := by
  have h0 : IsProbabilityMeasure (uniformBox (fun _ : Fin d => 0) fun _ => 1) := uniformBox_prob fun _ => one_pos
  exact ⟨(measurable_pi_apply i).aemeasurable, (measurePreserving_eval (fun _ : Fin n => uniformBox (fun _ : Fin d => 0) fun _ => 1) i).map_eq⟩

open Mfpml.Sampling in
/-- The hypotheses of `C129_lhs` and `C129_sobol` are met (without a seed). -/
example {n d : ℕ} (i : Fin n) : HasLaw (fun ω => ((idealEnv n d).lhs none n ω).1.getD i 0) (uniformBox (fun _ => 0) fun _ => 1) (independentUniform n (fun _ => 0) fun _ => 1) ∧
    HasLaw (fun ω => ((idealEnv n d).sobol none ω).1 ((some 0).getD d + i)) (uniformBox (fun _ => 0) fun _ => 1) (independentUniform n (fun _ => 0) fun _ => 1) := by
  refine ⟨(hasLaw_row i).congr (Filter.Eventually.of_forall fun ω => ?_), (hasLaw_row i).congr (Filter.Eventually.of_forall fun ω => ?_)⟩
  · simp [idealEnv, List.getD_eq_getElem?_getD]
  · simp [idealEnv]

end Mfpml.Props
